import Verif.Spec.Replies
import Verif.Proof.Replies

/-! # C118: the reply to a query reaches the client that asked, completely, and nobody else -/

namespace Verif.Props
open Verif.Model Verif.Spec Verif.Proof

private abbrev ids (p : Play) : List Nat := p.st.clients.map (·.1)

private def waits (p : PendingCmds) (k : Str) (c : Nat) : List Msg :=
  ((pendingOf p k).tail.filter (fun x => x.downstreamID = c)).map (·.msg)

private structure PlayInv (p : Play) : Prop where
  nodup : (ids p).Nodup
  keys : ∀ c ∈ ids p, c ∈ p.seen
  nz : ∀ c ∈ p.seen, c ≠ 0
  pend : ∀ k, ∀ c ∈ pendingOf p.st.pending k, IsQuery c.msg ∧ c.msg.command = k ∧ c.downstreamID ∈ p.seen
  idle : ∀ k, p.owed k = none → pendingOf p.st.pending k = []
  busy : ∀ k o, p.owed k = some o → ∃ h t, pendingOf p.st.pending k = h :: t ∧ h.downstreamID = o.client ∧
    h.sentAt = some o.since ∧ AnsTail h.msg o.lines
  served : ∀ s ∈ p.served, IsAnswer s.2.1 s.2.2 ∧ s.1 ∈ p.seen
  asked : ∀ a ∈ p.asked, a.1 ∈ p.seen
  none' : ∀ c, c ∉ p.seen → ∀ k, p.got k c = []
  acct : ∀ k, ∀ c ∈ ids p, p.got k c ++ owedTo p k c = (servedFor p k c).flatMap (·.2.2)
  ask : ∀ k, ∀ c ∈ ids p, (servedFor p k c).map (·.2.1) ++ waits p.st.pending k c = askedBy p k c
  sum : ∀ c ∈ ids p, ∀ m, (sentTo p.st c).count m = (askKinds.map (fun k => (p.got k c).count m)).sum

private theorem askKinds_queueable {q : Msg} (h : IsQuery q) : q.command ∈ queueable := by
  have := h.1
  simp only [askKinds, List.mem_cons, List.not_mem_nil, or_false] at this
  rcases this with e | e | e | e | e <;> rw [e] <;> simp [queueable]

private theorem inv_login (cm : CaseMapping) (p : Play) (c : Nat) (inv : PlayInv p) (ok : playOk cm p (.login c)) :
    PlayInv (playStep cm p (.login c)) := by
  obtain ⟨hc0, hc⟩ := ok
  have hnk : c ∉ ids p := fun h => hc (inv.keys c h)
  have hsv : ∀ k, servedFor p k c = [] := by
    intro k; unfold servedFor; rw [List.filter_eq_nil_iff]
    intro s hs; have := (inv.served s hs).2
    simp; rintro rfl; exact absurd this hc
  have hak : ∀ k, askedBy p k c = [] := by
    intro k; unfold askedBy
    have : p.asked.filter (fun a => decide (a.1 = c ∧ a.2.command = k)) = [] := by
      rw [List.filter_eq_nil_iff]
      intro a ha; have := inv.asked a ha
      simp; rintro rfl; exact absurd this hc
    rw [this]; rfl
  have how : ∀ k, owedTo p k c = [] := by
    intro k; unfold owedTo
    cases ho : p.owed k with
    | none => rfl
    | some o =>
      obtain ⟨h, t, h1, h2, -⟩ := inv.busy k o ho
      have h3 : h.downstreamID ∈ p.seen := (inv.pend k h (by rw [h1]; simp)).2.2
      simp only
      rw [if_neg]
      rintro rfl; exact hc (h2 ▸ h3)
  have hwa : ∀ k, waits p.st.pending k c = [] := by
    intro k; unfold waits
    have : (pendingOf p.st.pending k).tail.filter (fun x => decide (x.downstreamID = c)) = [] := by
      rw [List.filter_eq_nil_iff]
      intro x hx; have := (inv.pend k x (List.mem_of_mem_tail hx)).2.2
      simp; rintro rfl; exact absurd this hc
    rw [this]; rfl
  have hids : ids (playStep cm p (.login c)) = ids p ++ [c] := by simp [playStep, qrStep, ids]
  have hmem : ∀ d, d ∈ ids (playStep cm p (.login c)) → d ∈ ids p ∨ d = c := by
    intro d hd; rw [hids] at hd; simpa using hd
  refine ⟨?_, ?_, ?_, ?_, inv.idle, inv.busy, ?_, ?_, ?_, ?_, ?_, ?_⟩
  · rw [hids]; exact List.nodup_append.mpr ⟨inv.nodup, by simp, by rintro a ha b hb rfl; simp at hb; subst hb; exact hnk ha⟩
  · intro d hd; show d ∈ p.seen ++ [c]
    rcases hmem d hd with h | rfl
    · simp [inv.keys d h]
    · simp
  · intro d hd; change d ∈ p.seen ++ [c] at hd
    rcases List.mem_append.mp hd with h | h
    · exact inv.nz d h
    · simp at h; subst h; exact hc0
  · intro k x hx
    obtain ⟨h1, h2, h3⟩ := inv.pend k x hx
    exact ⟨h1, h2, List.mem_append_left _ h3⟩
  · intro s hs; exact ⟨(inv.served s hs).1, List.mem_append_left _ (inv.served s hs).2⟩
  · intro a ha; exact List.mem_append_left _ (inv.asked a ha)
  · intro d hd k; exact inv.none' d (fun h => hd (List.mem_append_left _ h)) k
  · intro k d hd
    rcases hmem d hd with h | rfl
    · exact inv.acct k d h
    · show p.got k d ++ owedTo p k d = (servedFor p k d).flatMap (·.2.2)
      rw [how, hsv, inv.none' d hc]; rfl
  · intro k d hd
    rcases hmem d hd with h | rfl
    · exact inv.ask k d h
    · show (servedFor p k d).map (·.2.1) ++ waits p.st.pending k d = askedBy p k d
      rw [hsv, hwa, hak]; rfl
  · intro d hd m
    have hs : sentTo (playStep cm p (.login c)).st d = sentTo p.st d := by
      unfold sentTo
      simp only [playStep, qrStep, List.filter_append]
      by_cases h : c = d <;> simp [h]
    rw [hs]
    rcases hmem d hd with h | rfl
    · exact inv.sum d h m
    · have h1 : sentTo p.st d = [] := by
        unfold sentTo
        have : p.st.clients.filter (fun q => decide (q.1 = d)) = [] := by
          rw [List.filter_eq_nil_iff]
          intro q hq; simp; intro e; exact hnk (List.mem_map.mpr ⟨q, hq, e⟩)
        rw [this]; rfl
      rw [h1]
      show _ = (askKinds.map (fun k => (p.got k d).count m)).sum
      simp [inv.none' d hc, askKinds]

private theorem inv_gone (cm : CaseMapping) (p : Play) (c : Nat) (inv : PlayInv p) : PlayInv (playStep cm p (.gone c)) := by
  have hids : ids (playStep cm p (.gone c)) = (ids p).filter (fun d => decide (d ≠ c)) := by
    simp [playStep, qrStep, ids, List.filter_map, Function.comp_def]
  have hmem : ∀ d, d ∈ ids (playStep cm p (.gone c)) → d ∈ ids p ∧ d ≠ c := by
    intro d hd; rw [hids] at hd; simpa using hd
  have hpend : ∀ k, pendingOf (playStep cm p (.gone c)).st.pending k = cancelTail c (pendingOf p.st.pending k) := by
    intro k; exact qr_pendingOf_cancel _ _ _
  refine ⟨?_, ?_, inv.nz, ?_, ?_, ?_, inv.served, inv.asked, inv.none', ?_, ?_, ?_⟩
  · rw [hids]; exact inv.nodup.filter _
  · intro d hd; exact inv.keys d (hmem d hd).1
  · intro k x hx
    rw [hpend] at hx
    apply inv.pend k x
    cases hp : pendingOf p.st.pending k with
    | nil => rw [hp] at hx; simp [cancelTail] at hx
    | cons h t =>
      rw [hp] at hx
      simp only [cancelTail, List.mem_cons, List.mem_filter] at hx ⊢
      tauto
  · intro k hk
    rw [hpend, inv.idle k hk]; rfl
  · intro k o ho
    obtain ⟨h, t, h1, h2⟩ := inv.busy k o ho
    exact ⟨h, _, by rw [hpend, h1]; rfl, h2⟩
  · intro k d hd; exact inv.acct k d (hmem d hd).1
  · intro k d hd
    have := inv.ask k d (hmem d hd).1
    show (servedFor p k d).map (·.2.1) ++ waits (playStep cm p (.gone c)).st.pending k d = askedBy p k d
    rw [← this]
    congr 1
    unfold waits
    rw [hpend]
    cases pendingOf p.st.pending k with
    | nil => rfl
    | cons h t =>
      simp only [cancelTail, List.tail_cons, List.filter_filter]
      congr 1
      apply List.filter_congr
      intro x _
      have := (hmem d hd).2
      by_cases hx : x.downstreamID = d
      · simp [hx, this]
      · simp [hx]
  · intro d hd m
    have hs : sentTo (playStep cm p (.gone c)).st d = sentTo p.st d := by
      unfold sentTo
      simp only [playStep, qrStep, List.filter_filter]
      congr 1
      apply List.filter_congr
      intro x _
      have := (hmem d hd).2
      by_cases hx : x.1 = d
      · simp [hx, this]
      · simp [hx]
    rw [hs]
    exact inv.sum d (hmem d hd).1 m

private theorem filter_snoc_count {α β : Type} (l : List α) (a : α) (q : α → Bool) (f : α → β) :
    ((l ++ [a]).filter q).map f = (l.filter q).map f ++ if q a then [f a] else [] := by
  rw [List.filter_append, List.map_append]
  congr 1
  by_cases h : q a <;> simp [h]

private theorem inv_query (cm : CaseMapping) (p : Play) (c : Nat) (m : Msg) (now : Nat) (next : List Msg) (inv : PlayInv p)
    (ok : playOk cm p (.query c m now next)) : PlayInv (playStep cm p (.query c m now next)) := by
  obtain ⟨hc, hq, htime, hans⟩ := ok
  have hqu := askKinds_queueable hq
  have hcs := inv.keys c hc
  have hasked : ∀ (P : Play), P.asked = p.asked ++ [(c, m)] → ∀ k d,
      askedBy P k d = askedBy p k d ++ if c = d ∧ m.command = k then [m] else [] := by
    intro P hP k d
    unfold askedBy
    rw [hP, filter_snoc_count]
    by_cases h : c = d ∧ m.command = k <;> simp [h]
  cases ho : p.owed m.command with
  | none =>
    obtain ⟨P, h1, h2⟩ := enq_empty p.st.pending c m now hqu (inv.idle _ ho)
    have hr : qrStep cm p.st (.query c m now) = ({ p.st with pending := P }, [⟨c, m⟩]) := by simp [qrStep, h1]
    have hstep : playStep cm p (.query c m now next) =
        { st := { p.st with pending := P }, owed := fun k => if k = m.command then some ⟨c, next, now⟩ else p.owed k,
          asked := p.asked ++ [(c, m)], served := p.served ++ [(c, m, next)], got := p.got, seen := p.seen } := by
      simp only [playStep, hr, playServe, List.foldl_cons, List.foldl_nil]
    have ha : IsAnswer m next := hans ⟨c, m⟩ (by rw [hr]; simp)
    rw [hstep]
    have hsv : ∀ k d, (p.served ++ [(c, m, next)]).filter (fun s => decide (s.1 = d ∧ s.2.1.command = k)) =
        servedFor p k d ++ if c = d ∧ m.command = k then [(c, m, next)] else [] := by
      intro k d
      unfold servedFor
      rw [List.filter_append]
      by_cases h : c = d ∧ m.command = k <;> simp [h]
    refine ⟨inv.nodup, inv.keys, inv.nz, ?_, ?_, ?_, ?_, ?_, inv.none', ?_, ?_, inv.sum⟩
    · intro k x hx
      dsimp only at hx
      rw [h2] at hx
      by_cases hk : m.command = k
      · rw [if_pos hk] at hx; simp at hx; subst hx; exact ⟨hq, hk, hcs⟩
      · rw [if_neg hk] at hx; exact inv.pend k x hx
    · intro k hk
      dsimp only at hk ⊢
      by_cases e : k = m.command
      · rw [if_pos e] at hk; cases hk
      · rw [if_neg e] at hk; rw [h2, if_neg (fun e' => e e'.symm)]; exact inv.idle k hk
    · intro k o hk
      dsimp only at hk ⊢
      by_cases e : k = m.command
      · rw [if_pos e] at hk; cases hk
        exact ⟨_, [], by rw [h2, if_pos e.symm], rfl, rfl, ansTail_of ha⟩
      · rw [if_neg e] at hk; rw [h2, if_neg (fun e' => e e'.symm)]; exact inv.busy k o hk
    · intro s hs
      rcases List.mem_append.mp hs with hs | hs
      · exact inv.served s hs
      · simp at hs; subst hs; exact ⟨ha, hcs⟩
    · intro a hs
      rcases List.mem_append.mp hs with hs | hs
      · exact inv.asked a hs
      · simp at hs; subst hs; exact hcs
    · intro k d hd
      have := inv.acct k d hd
      unfold servedFor
      rw [hsv, List.flatMap_append, ← this, List.append_assoc]
      congr 1
      unfold owedTo
      dsimp only
      by_cases e : k = m.command
      · subst e
        rw [if_pos rfl, ho]
        by_cases hcd : c = d <;> simp [hcd]
      · rw [if_neg e, if_neg (fun h => e h.2.symm)]; simp
    · intro k d hd
      have := inv.ask k d hd
      rw [hasked _ rfl, ← this]
      unfold servedFor
      rw [hsv, List.map_append]
      unfold waits
      dsimp only
      rw [h2]
      by_cases e : m.command = k
      · subst e
        have hi : waits p.st.pending m.command d = [] := by unfold waits; rw [inv.idle _ ho]; rfl
        rw [inv.idle _ ho]
        by_cases hcd : c = d <;> simp [hcd, servedFor]
      · rw [if_neg e, if_neg (fun h => e h.2), if_neg (fun h => e h.2)]; simp [servedFor]
  | some o =>
    obtain ⟨h, t, hp1, hp2, hp3, hp4⟩ := inv.busy _ o ho
    obtain ⟨P, h1, h2⟩ := enq_more p.st.pending c m now hqu h t o.since hp1 hp3 (htime o ho)
    have hr : qrStep cm p.st (.query c m now) = ({ p.st with pending := P }, []) := by simp [qrStep, h1]
    have hstep : playStep cm p (.query c m now next) =
        { p with st := { p.st with pending := P }, asked := p.asked ++ [(c, m)] } := by
      simp only [playStep, hr, playServe, List.foldl_nil]
    rw [hstep]
    refine ⟨inv.nodup, inv.keys, inv.nz, ?_, ?_, ?_, inv.served, ?_, inv.none', inv.acct, ?_, inv.sum⟩
    · intro k x hx
      dsimp only at hx
      rw [h2] at hx
      by_cases hk : m.command = k
      · rw [if_pos hk] at hx
        rcases List.mem_append.mp hx with hx | hx
        · exact inv.pend k x (by rw [← hk, hp1]; exact hx)
        · simp at hx; subst hx; exact ⟨hq, hk, hcs⟩
      · rw [if_neg hk] at hx; exact inv.pend k x hx
    · intro k hk
      dsimp only at hk ⊢
      rw [h2, if_neg]
      · exact inv.idle k hk
      · rintro rfl; rw [ho] at hk; cases hk
    · intro k o' hk
      dsimp only at hk ⊢
      by_cases e : m.command = k
      · subst e
        rw [ho] at hk; cases hk
        exact ⟨h, t ++ [⟨c, m, none⟩], by rw [h2, if_pos rfl]; simp, hp2, hp3, hp4⟩
      · rw [h2, if_neg e]; exact inv.busy k o' hk
    · intro a hs
      rcases List.mem_append.mp hs with hs | hs
      · exact inv.asked a hs
      · simp at hs; subst hs; exact hcs
    · intro k d hd
      have := inv.ask k d hd
      rw [hasked _ rfl, ← this, List.append_assoc]
      congr 1
      unfold waits
      dsimp only
      rw [h2]
      by_cases e : m.command = k
      · subst e
        rw [if_pos rfl, hp1]
        simp only [List.cons_append, List.tail_cons]
        rw [filter_snoc_count]
        by_cases hcd : c = d <;> simp [hcd]
      · rw [if_neg e, if_neg (fun h => e h.2)]; simp

private theorem sum_add (l : List Str) (k : Str) (hk : k ∈ l) (hn : l.Nodup) (f : Str → Nat) (n : Nat) :
    (l.map (fun j => f j + if j = k then n else 0)).sum = (l.map f).sum + n := by
  induction l with
  | nil => cases hk
  | cons a l ih =>
    simp only [List.nodup_cons] at hn
    simp only [List.map_cons, List.sum_cons]
    by_cases h : a = k
    · subst h
      have : l.map (fun j => f j + if j = a then n else 0) = l.map f := by
        apply List.map_congr_left
        intro j hj
        rw [if_neg]; · rfl
        rintro rfl; exact hn.1 hj
      rw [this, if_pos rfl]; omega
    · rw [if_neg h, ih ((List.mem_cons.mp hk).resolve_left (fun e => h e.symm)) hn.2]; omega

private theorem inv_says (cm : CaseMapping) (p : Play) (kind : Str) (lab : Bool) (now : Nat) (next : List Msg) (inv : PlayInv p)
    (ok : playOk cm p (.says kind lab now next)) : PlayInv (playStep cm p (.says kind lab now next)) := by
  cases ho : p.owed kind with
  | none => simpa only [playStep, ho] using inv
  | some o =>
    obtain ⟨h, t, hp1, hp2, hp3, hp4⟩ := inv.busy _ o ho
    obtain ⟨oc, ol, os⟩ := o
    dsimp only at hp2 hp3 hp4
    subst hp2
    cases ol with
    | nil => exact absurd rfl (ansTail_ne hp4)
    | cons x rest =>
    obtain ⟨hok1, hok2⟩ := ok _ x rest ho rfl
    dsimp only at hok1 hok2
    obtain ⟨hq, hk, hseen⟩ := inv.pend kind h (by rw [hp1]; simp)
    have hnz := inv.nz _ hseen
    have hkk : kind ∈ askKinds := by rw [← hk]; exact hq.1
    -- what clients hear
    have key : ∀ (P : PendingCmds) (Q : Play), Q.st = qrSend { p.st with pending := P } h.downstreamID x → Q.seen = p.seen →
        Q.asked = p.asked →
        (Q.got = fun k c => p.got k c ++ if k = kind then (sentTo (qrSend { p.st with pending := P } h.downstreamID x) c).drop (sentTo p.st c).length else []) →
        ids Q = ids p ∧
        (∀ k c, Q.got k c = p.got k c ++ if k = kind ∧ c = h.downstreamID ∧ c ∈ ids p then [x] else []) ∧
        (∀ c, c ∉ Q.seen → ∀ k, Q.got k c = []) ∧
        (∀ c ∈ ids Q, ∀ m, (sentTo Q.st c).count m = (askKinds.map (fun k => (Q.got k c).count m)).sum) := by
      intro P Q hst hsn hak hgot
      have hids : ids Q = ids p := by unfold ids; rw [hst, qrSend_keys]
      have hs : ∀ c, sentTo Q.st c = sentTo p.st c ++ if c = h.downstreamID ∧ c ∈ ids p then [x] else [] := by
        intro c; rw [hst]; exact sentTo_qrSend { p.st with pending := P } _ _ _ inv.nodup
      have hg : ∀ k c, Q.got k c = p.got k c ++ if k = kind ∧ c = h.downstreamID ∧ c ∈ ids p then [x] else [] := by
        intro k c
        rw [hgot]
        dsimp only
        congr 1
        by_cases hkk : k = kind
        · subst hkk
          rw [if_pos rfl, ← hst, hs c, List.drop_left]
          by_cases hcc : c = h.downstreamID ∧ c ∈ ids p
          · rw [if_pos hcc, if_pos ⟨rfl, hcc⟩]
          · rw [if_neg hcc, if_neg (fun e => hcc e.2)]
        · rw [if_neg hkk, if_neg (fun e => hkk e.1)]
      refine ⟨hids, hg, ?_, ?_⟩
      · intro c hc k
        rw [hsn] at hc
        rw [hg, inv.none' c hc, if_neg (fun e => hc (inv.keys c e.2.2))]; rfl
      · intro c hc m
        rw [hids] at hc
        rw [hs, List.count_append, inv.sum c hc m]
        have : askKinds.map (fun k => (Q.got k c).count m) = askKinds.map (fun k => (p.got k c).count m +
            if k = kind then ((if c = h.downstreamID ∧ c ∈ ids p then [x] else []) : List Msg).count m else 0) := by
          apply List.map_congr_left
          intro k _
          rw [hg, List.count_append]
          by_cases hkk : k = kind
          · subst hkk
            rw [if_pos rfl]
            by_cases hcc : c = h.downstreamID ∧ c ∈ ids p
            · rw [if_pos hcc, if_pos ⟨rfl, hcc⟩]
            · rw [if_neg hcc, if_neg (fun e => hcc e.2)]
          · simp [hkk]
        rw [this, sum_add askKinds kind hkk (by decide)]
    have hserv : ∀ (Q : Play), Q.served = p.served → ∀ k c, servedFor Q k c = servedFor p k c := by
      intro Q hQ k c; unfold servedFor; rw [hQ]
    rcases ansTail_cons hp4 with ⟨hrest, hlast⟩ | ⟨hrest, hline, htail⟩
    · subst hrest
      have hh := last_handle cm p.st (if lab = true then h.downstreamID else 0) now kind x h t hp1 hk hq hnz (by rw [← hk]; exact hlast)
        (by
          intro hr
          cases lab with
          | true => left; rfl
          | false => right; exact ⟨rfl, hok1 hr rfl⟩)
      cases t with
      | nil =>
        obtain ⟨P, hd1, hd2⟩ := deq_last p.st.pending kind now h hp1
        rw [hd1] at hh
        dsimp only at hh
        obtain ⟨hids, hg, hno, hsum⟩ := key P (playStep cm p (.says kind lab now next))
          (by simp only [playStep, ho, qrStep, hh, playServe, List.foldl_nil])
          (by simp only [playStep, ho, qrStep, hh, playServe, List.foldl_nil])
          (by simp only [playStep, ho, qrStep, hh, playServe, List.foldl_nil])
          (by simp only [playStep, ho, qrStep, hh, playServe, List.foldl_nil])
        have hst : (playStep cm p (.says kind lab now next)).st.pending = P := by
          simp only [playStep, ho, qrStep, hh, playServe, List.foldl_nil]; rfl
        have how : ∀ k, (playStep cm p (.says kind lab now next)).owed k = if k = kind then none else p.owed k := by
          intro k; simp only [playStep, ho, qrStep, hh, playServe, List.foldl_nil, if_true]
        have hsn : (playStep cm p (.says kind lab now next)).seen = p.seen := by
          simp only [playStep, ho, qrStep, hh, playServe, List.foldl_nil]
        have hak : (playStep cm p (.says kind lab now next)).asked = p.asked := by
          simp only [playStep, ho, qrStep, hh, playServe, List.foldl_nil]
        have hsv : (playStep cm p (.says kind lab now next)).served = p.served := by
          simp only [playStep, ho, qrStep, hh, playServe, List.foldl_nil]
        generalize playStep cm p (.says kind lab now next) = Q at *
        refine ⟨hids ▸ inv.nodup, ?_, hsn ▸ inv.nz, ?_, ?_, ?_, ?_, ?_, hno, ?_, ?_, hsum⟩
        · rw [hids, hsn]; exact inv.keys
        · intro k y hy
          rw [hst, hd2] at hy
          by_cases e : kind = k
          · rw [if_pos e] at hy; cases hy
          · rw [if_neg e] at hy; rw [hsn]; exact inv.pend k y hy
        · intro k hk'
          rw [how] at hk'
          rw [hst, hd2]
          by_cases e : kind = k
          · rw [if_pos e]
          · rw [if_neg e]; rw [if_neg (fun e' => e e'.symm)] at hk'; exact inv.idle k hk'
        · intro k o' hk'
          rw [how] at hk'
          rw [hst, hd2]
          by_cases e : kind = k
          · rw [if_pos e.symm] at hk'; cases hk'
          · rw [if_neg e]; rw [if_neg (fun e' => e e'.symm)] at hk'; exact inv.busy k o' hk'
        · rw [hsv, hsn]; exact inv.served
        · rw [hak, hsn]; exact inv.asked
        · intro k d hd
          rw [hids] at hd
          rw [hserv Q hsv, ← inv.acct k d hd, hg, List.append_assoc]
          congr 1
          unfold owedTo
          rw [how]
          by_cases e : k = kind
          · subst e
            rw [if_pos rfl, ho]
            by_cases hdh : d = h.downstreamID
            · subst hdh; simp [hd]
            · have hdh' : ¬ h.downstreamID = d := fun e => hdh e.symm
              simp [hdh, hdh']
          · rw [if_neg e, if_neg (fun h => e h.1)]; simp
        · intro k d hd
          rw [hids] at hd
          have hak' : askedBy Q k d = askedBy p k d := by unfold askedBy; rw [hak]
          rw [hserv Q hsv, hak', ← inv.ask k d hd]
          congr 1
          unfold waits
          rw [hst, hd2]
          by_cases e : kind = k
          · subst e; rw [if_pos rfl, hp1]; rfl
          · rw [if_neg e]
      | cons y t =>
        obtain ⟨P, hd1, hd2⟩ := deq_next p.st.pending kind now h y t hp1
        rw [hd1] at hh
        dsimp only at hh
        obtain ⟨hyq, hyk, hys⟩ := inv.pend kind y (by rw [hp1]; simp)
        have ha : IsAnswer y.msg next := hok2 ⟨y.downstreamID, y.msg⟩ (by simp only [qrStep]; rw [hh]; simp)
        obtain ⟨hids, hg, hno, hsum⟩ := key P (playStep cm p (.says kind lab now next))
          (by simp only [playStep, ho, qrStep, hh, playServe, List.foldl_cons, List.foldl_nil])
          (by simp only [playStep, ho, qrStep, hh, playServe, List.foldl_cons, List.foldl_nil])
          (by simp only [playStep, ho, qrStep, hh, playServe, List.foldl_cons, List.foldl_nil])
          (by simp only [playStep, ho, qrStep, hh, playServe, List.foldl_cons, List.foldl_nil])
        have hst : (playStep cm p (.says kind lab now next)).st.pending = P := by
          simp only [playStep, ho, qrStep, hh, playServe, List.foldl_cons, List.foldl_nil]; rfl
        have how : ∀ k, (playStep cm p (.says kind lab now next)).owed k =
            if k = kind then some ⟨y.downstreamID, next, now⟩ else p.owed k := by
          intro k
          simp only [playStep, ho, qrStep, hh, playServe, List.foldl_cons, List.foldl_nil, if_true, hyk]
          by_cases e : k = kind
          · rw [if_pos e, if_pos e]
          · rw [if_neg e, if_neg e, if_neg e]
        have hsn : (playStep cm p (.says kind lab now next)).seen = p.seen := by
          simp only [playStep, ho, qrStep, hh, playServe, List.foldl_cons, List.foldl_nil]
        have hak : (playStep cm p (.says kind lab now next)).asked = p.asked := by
          simp only [playStep, ho, qrStep, hh, playServe, List.foldl_cons, List.foldl_nil]
        have hsv : (playStep cm p (.says kind lab now next)).served = p.served ++ [(y.downstreamID, y.msg, next)] := by
          simp only [playStep, ho, qrStep, hh, playServe, List.foldl_cons, List.foldl_nil]
        generalize playStep cm p (.says kind lab now next) = Q at *
        have hsf : ∀ k d, servedFor Q k d = servedFor p k d ++
            if y.downstreamID = d ∧ kind = k then [(y.downstreamID, y.msg, next)] else [] := by
          intro k d
          unfold servedFor
          rw [hsv, List.filter_append]
          congr 1
          by_cases e : y.downstreamID = d ∧ kind = k
          · rw [if_pos e]; simp [e.1, hyk, e.2]
          · rw [if_neg e]; simp only [List.filter_cons, hyk, decide_eq_true_eq, if_neg e, List.filter_nil]
        refine ⟨hids ▸ inv.nodup, ?_, hsn ▸ inv.nz, ?_, ?_, ?_, ?_, ?_, hno, ?_, ?_, hsum⟩
        · rw [hids, hsn]; exact inv.keys
        · intro k z hz
          rw [hst, hd2] at hz
          rw [hsn]
          by_cases e : kind = k
          · rw [if_pos e] at hz
            subst e
            rcases List.mem_cons.mp hz with rfl | hz
            · exact ⟨hyq, hyk, hys⟩
            · exact inv.pend _ z (by rw [hp1]; simp [hz])
          · rw [if_neg e] at hz; exact inv.pend k z hz
        · intro k hk'
          rw [how] at hk'
          rw [hst, hd2]
          by_cases e : kind = k
          · rw [if_pos e.symm] at hk'; cases hk'
          · rw [if_neg e]; rw [if_neg (fun e' => e e'.symm)] at hk'; exact inv.idle k hk'
        · intro k o' hk'
          rw [how] at hk'
          rw [hst, hd2]
          by_cases e : kind = k
          · rw [if_pos e.symm] at hk'; cases hk'
            rw [if_pos e]
            exact ⟨_, _, rfl, rfl, rfl, ansTail_of ha⟩
          · rw [if_neg e]; rw [if_neg (fun e' => e e'.symm)] at hk'; exact inv.busy k o' hk'
        · rw [hsv, hsn]
          intro s hs
          rcases List.mem_append.mp hs with hs | hs
          · exact inv.served s hs
          · simp at hs; subst hs; exact ⟨ha, hys⟩
        · rw [hak, hsn]; exact inv.asked
        · intro k d hd
          rw [hids] at hd
          rw [hsf, List.flatMap_append, ← inv.acct k d hd, hg]
          unfold owedTo
          rw [how]
          by_cases e : k = kind
          · subst e
            rw [if_pos rfl, ho]
            dsimp only
            by_cases hdh : h.downstreamID = d
            · subst hdh
              by_cases hy : y.downstreamID = h.downstreamID <;> simp [hd, hy]
            · have hdh' : ¬ d = h.downstreamID := fun e => hdh e.symm
              by_cases hy : y.downstreamID = d <;> simp [hdh, hy, hdh']
          · rw [if_neg e, if_neg (fun h => e h.1), if_neg (fun h => e h.2.symm)]; simp
        · intro k d hd
          rw [hids] at hd
          have hak' : askedBy Q k d = askedBy p k d := by unfold askedBy; rw [hak]
          rw [hsf, hak', ← inv.ask k d hd, List.map_append, List.append_assoc]
          congr 1
          unfold waits
          rw [hst, hd2]
          by_cases e : kind = k
          · subst e
            rw [if_pos rfl, hp1]
            by_cases hy : y.downstreamID = d <;> simp [hy]
          · rw [if_neg e, if_neg (fun h => e h.2)]; rfl
    · have hh := isLine_handle cm p.st (if lab = true then h.downstreamID else 0) now kind x h t hp1 (by rw [← hk]; exact hline)
      obtain ⟨hids, hg, hno, hsum⟩ := key p.st.pending (playStep cm p (.says kind lab now next))
        (by simp only [playStep, ho, qrStep, hh, playServe, List.foldl_nil])
        (by simp only [playStep, ho, qrStep, hh, playServe, List.foldl_nil])
        (by simp only [playStep, ho, qrStep, hh, playServe, List.foldl_nil])
        (by simp only [playStep, ho, qrStep, hh, playServe, List.foldl_nil])
      have hst : (playStep cm p (.says kind lab now next)).st.pending = p.st.pending := by
        simp only [playStep, ho, qrStep, hh, playServe, List.foldl_nil]; rfl
      have how : ∀ k, (playStep cm p (.says kind lab now next)).owed k =
          if k = kind then some ⟨h.downstreamID, rest, os⟩ else p.owed k := by
        intro k; simp only [playStep, ho, qrStep, hh, playServe, List.foldl_nil, if_neg hrest]
      have hsn : (playStep cm p (.says kind lab now next)).seen = p.seen := by
        simp only [playStep, ho, qrStep, hh, playServe, List.foldl_nil]
      have hak : (playStep cm p (.says kind lab now next)).asked = p.asked := by
        simp only [playStep, ho, qrStep, hh, playServe, List.foldl_nil]
      have hsv : (playStep cm p (.says kind lab now next)).served = p.served := by
        simp only [playStep, ho, qrStep, hh, playServe, List.foldl_nil]
      generalize playStep cm p (.says kind lab now next) = Q at *
      refine ⟨hids ▸ inv.nodup, ?_, hsn ▸ inv.nz, ?_, ?_, ?_, ?_, ?_, hno, ?_, ?_, hsum⟩
      · rw [hids, hsn]; exact inv.keys
      · rw [hst, hsn]; exact inv.pend
      · intro k hk'
        rw [how] at hk'
        rw [hst]
        by_cases e : k = kind
        · rw [if_pos e] at hk'; cases hk'
        · rw [if_neg e] at hk'; exact inv.idle k hk'
      · intro k o' hk'
        rw [how] at hk'
        rw [hst]
        by_cases e : k = kind
        · rw [if_pos e] at hk'; cases hk'
          exact ⟨h, t, e ▸ hp1, rfl, hp3, htail⟩
        · rw [if_neg e] at hk'; exact inv.busy k o' hk'
      · rw [hsv, hsn]; exact inv.served
      · rw [hak, hsn]; exact inv.asked
      · intro k d hd
        rw [hids] at hd
        rw [hserv Q hsv, ← inv.acct k d hd, hg, List.append_assoc]
        congr 1
        unfold owedTo
        rw [how]
        by_cases e : k = kind
        · subst e
          rw [if_pos rfl, ho]
          by_cases hdh : d = h.downstreamID
          · subst hdh; simp [hd]
          · have hdh' : ¬ h.downstreamID = d := fun e => hdh e.symm
            simp [hdh, hdh']
        · rw [if_neg e, if_neg (fun h => e h.1)]; simp
      · intro k d hd
        rw [hids] at hd
        have hak' : askedBy Q k d = askedBy p k d := by unfold askedBy; rw [hak]
        rw [hserv Q hsv, hak', hst]
        exact inv.ask k d hd

private theorem inv_run (cm : CaseMapping) (ops : List PlayOp) : PlayOk cm ops → PlayInv (playRun cm ops) := by
  induction ops using snocInd with
  | nil =>
    intro _
    refine ⟨by simp [ids, playRun, playStart], by simp [ids, playRun, playStart], by simp [playRun, playStart], ?_, ?_, ?_, ?_, ?_, ?_, ?_, ?_, ?_⟩
    all_goals simp [ids, playRun, playStart, pendingOf, GoMap.get]
  | snoc ops op ih =>
    intro ok
    have h1 : PlayOk cm ops := fun pre o post e => ok pre o (post ++ [op]) (by rw [e]; simp)
    have h2 := ok ops op [] (by simp)
    have hr : playRun cm (ops ++ [op]) = playStep cm (playRun cm ops) op := by unfold playRun; rw [List.foldl_append]; rfl
    rw [hr]
    have inv := ih h1
    cases op with
    | login c => exact inv_login cm _ c inv h2
    | gone c => exact inv_gone cm _ c inv
    | query c m now next => exact inv_query cm _ c m now next inv h2
    | «says» k l now next => exact inv_says cm _ k l now next inv h2

/-! ## The theorems -/

/-- When the server owes nothing about a kind of command, every client still there had all its commands of that kind
taken to the server, in order and once each; and it was sent the answers to them, in order, complete, and no other. -/
theorem C118_answers (cm : CaseMapping) (ops : List PlayOp) (ok : PlayOk cm ops) (k : Str) (c : Nat)
    (hc : c ∈ (playRun cm ops).st.clients.map (·.1)) (hk : (playRun cm ops).owed k = none) :
    (servedFor (playRun cm ops) k c).map (·.2.1) = askedBy (playRun cm ops) k c ∧
    (playRun cm ops).got k c = (servedFor (playRun cm ops) k c).flatMap (·.2.2) ∧
    ∀ s ∈ servedFor (playRun cm ops) k c, IsAnswer s.2.1 s.2.2 := by
  have inv := inv_run cm ops ok
  refine ⟨?_, ?_, ?_⟩
  · rw [← inv.ask k c hc]
    unfold waits
    rw [inv.idle k hk]; simp
  · rw [← inv.acct k c hc]
    unfold owedTo
    rw [hk]; simp
  · intro s hs
    exact (inv.served s (List.mem_of_mem_filter hs)).1

/-- At any time: what a client was sent, with what the server has yet to say to it, is the answers to its commands, in
order; the commands the server got are the first ones it gave. -/
theorem C118_partway (cm : CaseMapping) (ops : List PlayOp) (ok : PlayOk cm ops) (k : Str) (c : Nat)
    (hc : c ∈ (playRun cm ops).st.clients.map (·.1)) :
    (servedFor (playRun cm ops) k c).map (·.2.1) <+: askedBy (playRun cm ops) k c ∧
    (playRun cm ops).got k c ++ owedTo (playRun cm ops) k c = (servedFor (playRun cm ops) k c).flatMap (·.2.2) := by
  have inv := inv_run cm ops ok
  exact ⟨⟨_, inv.ask k c hc⟩, inv.acct k c hc⟩

/-- A client is sent nothing but that. -/
theorem C118_nothing_else (cm : CaseMapping) (ops : List PlayOp) (ok : PlayOk cm ops) (c : Nat)
    (hc : c ∈ (playRun cm ops).st.clients.map (·.1)) :
    (sentTo (playRun cm ops).st c).Perm (askKinds.flatMap (fun k => (playRun cm ops).got k c)) := by
  have inv := inv_run cm ops ok
  rw [List.perm_iff_count]
  intro m
  rw [inv.sum c hc m, List.count_flatMap]
  rfl

/-- A command that waits does so because the server works on another one of its kind. -/
theorem C118_idle (cm : CaseMapping) (ops : List PlayOp) (ok : PlayOk cm ops) (k : Str) (c : Nat)
    (hc : c ∈ (playRun cm ops).st.clients.map (·.1))
    (h : (servedFor (playRun cm ops) k c).length < (askedBy (playRun cm ops) k c).length) :
    ∃ o, (playRun cm ops).owed k = some o ∧ o.lines ≠ [] := by
  have inv := inv_run cm ops ok
  cases ho : (playRun cm ops).owed k with
  | none =>
    have := (C118_answers cm ops ok k c hc ho).1
    rw [← this] at h; simp at h
  | some o =>
    obtain ⟨q, t, -, -, -, h4⟩ := inv.busy k o ho
    exact ⟨o, rfl, ansTail_ne h4⟩

private theorem playOk_snoc (cm : CaseMapping) (ops : List PlayOp) (op : PlayOp) (h : PlayOk cm ops) (h2 : playOk cm (playRun cm ops) op) :
    PlayOk cm (ops ++ [op]) := by
  intro pre o post e
  rcases List.eq_nil_or_concat post with rfl | ⟨init, l, rfl⟩
  · obtain ⟨rfl, h4⟩ := List.append_inj' e (by simp)
    simp at h4; subst h4; exact h2
  · rw [List.concat_eq_append, ← List.cons_append, ← List.append_assoc] at e
    obtain ⟨h3, -⟩ := List.append_inj' e (by simp)
    exact h pre o init h3

private def wAnn : List Msg := [⟨b!"311", [b!"me", b!"ann", b!"~ann", b!"host", b!"*", b!"Ann"]⟩] ++ [⟨b!"318", [b!"me", b!"ann", b!"End"]⟩]
private def wBob : List Msg := [⟨b!"401", [b!"me", b!"bob", b!"No such nick"]⟩]

private def opsEx : List PlayOp :=
  [.login 1, .login 2, .query 1 (whoisOf b!"bob") 5 wBob, .query 2 (whoisOf b!"ann") 6 [], .says b!"WHOIS" false 7 wAnn,
   .says b!"WHOIS" false 8 [], .says b!"WHOIS" false 9 []]

private theorem opsEx_ok (cm : CaseMapping) : PlayOk cm opsEx := by
  have hb : IsAnswer (whoisOf b!"bob") wBob :=
    .nobody _ ⟨rfl, by simp, _, _, _, _, rfl, rfl⟩
  have ha : IsAnswer (whoisOf b!"ann") wAnn :=
    .reply _ _ (by intro x hx; simp at hx; subst hx; exact .inr (.inr ⟨rfl, by simp⟩)) (.inr (.inr (.inl ⟨rfl, rfl⟩)))
  have hq : ∀ n, IsQuery (whoisOf n) := fun n => ⟨by simp [whoisOf, askKinds], by simp [whoisOf], by simp [whoisOf], by simp [whoisOf]⟩
  have h0 : PlayOk cm [] := by intro pre op post e; simp at e
  have h1 := playOk_snoc cm _ (.login 1) h0 ⟨by simp, by simp [playRun, playStart]⟩
  have h2 := playOk_snoc cm _ (.login 2) h1 ⟨by simp, by simp [playRun, playStart, playStep]⟩
  have h3 := playOk_snoc cm _ (.query 1 (whoisOf b!"bob") 5 wBob) h2 (by
    refine ⟨by cases cm <;> decide +kernel, hq _, (fun o ho => by cases ho), ?_⟩
    intro s hs
    change s ∈ [(⟨1, whoisOf b!"bob"⟩ : Sent)] at hs
    simp at hs; subst hs; exact hb)
  have h4 := playOk_snoc cm _ (.query 2 (whoisOf b!"ann") 6 []) h3 (by
    refine ⟨by cases cm <;> decide +kernel, hq _, ?_, ?_⟩
    · intro o ho
      change some (⟨1, wBob, 5⟩ : Owed) = some o at ho
      cases ho; simp
    · intro s hs
      have : (qrStep cm (playRun cm (opsEx.take 3)).st (.query 2 (whoisOf b!"ann") 6)).2 = [] := by cases cm <;> decide +kernel
      change s ∈ (qrStep cm (playRun cm (opsEx.take 3)).st (.query 2 (whoisOf b!"ann") 6)).2 at hs
      rw [this] at hs; cases hs)
  have ex : ∀ (n now : Nat) (o : Owed) (sent : List Sent) (next : List Msg), (playRun cm (opsEx.take n)).owed b!"WHOIS" = some o →
      (∀ x, o.lines.head? = some x → ¬ IsRefusal b!"WHOIS" x ∧ (qrStep cm (playRun cm (opsEx.take n)).st (.says 0 x now)).2 = sent) →
      (∀ s ∈ sent, IsAnswer s.msg next) → playOk cm (playRun cm (opsEx.take n)) (.says b!"WHOIS" false now next) := by
    intro n now o sent next ho hx hs o' x rest ho' hl
    rw [ho] at ho'; cases ho'
    obtain ⟨h1, h2⟩ := hx x (by rw [hl]; rfl)
    refine ⟨fun h => absurd h h1, ?_⟩
    intro s hs'
    apply hs
    rw [← h2]; exact hs'
  have nr : ∀ x : Msg, x.command ∈ [b!"401", b!"311", b!"318"] → ¬ IsRefusal b!"WHOIS" x := by
    rintro ⟨c, ps⟩ hx (⟨h, -⟩ | ⟨h, -⟩)
    · dsimp only at hx h
      simp only [List.mem_cons, List.not_mem_nil, or_false] at hx h
      rcases hx with rfl | rfl | rfl <;> revert h <;> decide
    · dsimp only at hx h
      simp only [List.mem_cons, List.not_mem_nil, or_false] at hx
      rcases hx with rfl | rfl | rfl <;> revert h <;> decide
  have h5 := playOk_snoc cm _ (.says b!"WHOIS" false 7 wAnn) h4 (by
    refine ex 4 7 ⟨1, wBob, 5⟩ [⟨2, whoisOf b!"ann"⟩] wAnn (by cases cm <;> decide +kernel) ?_ (by simpa using ha)
    intro x hx
    simp [wBob] at hx; subst hx
    exact ⟨nr _ (by simp), by cases cm <;> decide +kernel⟩)
  have h6 := playOk_snoc cm _ (.says b!"WHOIS" false 8 []) h5 (by
    refine ex 5 8 ⟨2, wAnn, 7⟩ [] [] (by cases cm <;> decide +kernel) ?_ (by simp)
    intro x hx
    simp [wAnn] at hx; subst hx
    exact ⟨nr _ (by simp), by cases cm <;> decide +kernel⟩)
  exact playOk_snoc cm _ (.says b!"WHOIS" false 9 []) h6 (by
    refine ex 6 9 ⟨2, wAnn.tail, 7⟩ [] [] (by cases cm <;> decide +kernel) ?_ (by simp)
    intro x hx
    simp [wAnn] at hx; subst hx
    exact ⟨nr _ (by simp), by cases cm <;> decide +kernel⟩)

/-- Two clients ask; the first one learns that there is nobody of the name, and the second one gets its reply. -/
example (cm : CaseMapping) : PlayOk cm opsEx ∧ (playRun cm opsEx).owed b!"WHOIS" = none ∧
    1 ∈ (playRun cm opsEx).st.clients.map (·.1) ∧ sentTo (playRun cm opsEx).st 1 = wBob ∧ sentTo (playRun cm opsEx).st 2 = wAnn :=
  ⟨opsEx_ok cm, by cases cm <;> decide +kernel, by cases cm <;> decide +kernel, by cases cm <;> decide +kernel, by cases cm <;> decide +kernel⟩

/-- One waits for the other. -/
example : (servedFor (playRun .ascii (opsEx.take 4)) b!"WHOIS" 2).length < (askedBy (playRun .ascii (opsEx.take 4)) b!"WHOIS" 2).length := by
  decide +kernel

/-! ## What goes wrong -/

/-- Most servers end the reply to WHOIS when there is nobody of the name, too.  That end is taken for the end of the next
reply, of another client, even if it has the label of the first one: the other client gets the end of a reply it did not
ask for, and its own reply is dropped.  The client that asked does not get the end. -/
theorem C118_nobody_violated (cm : CaseMapping) (labelled : Bool) : ∃ (bob ann : Str) (endBob annIs endAnn : Msg) (noBob : Msg),
    noBob.command = b!"401" ∧ endBob.command = b!"318" ∧ IsAnswer (whoisOf ann) [annIs, endAnn] ∧
    let id1 := if labelled then 1 else 0
    let id2 := if labelled then 2 else 0
    let ops := [.login 1, .login 2, .query 1 (whoisOf bob) 5, .query 2 (whoisOf ann) 6, .says id1 noBob 7, .says id1 endBob 8,
      .says id2 annIs 9, .says id2 endAnn 10]
    heardIn cm ops 1 = [noBob] ∧ heardIn cm ops 2 = [endBob] := by
  refine ⟨b!"bob", b!"ann", ⟨b!"318", [b!"me", b!"bob", b!"End"]⟩, ⟨b!"311", [b!"me", b!"ann", b!"~ann", b!"host", b!"*", b!"Ann"]⟩,
    ⟨b!"318", [b!"me", b!"ann", b!"End"]⟩, ⟨b!"401", [b!"me", b!"bob", b!"No such nick"]⟩, rfl, rfl, ?_, ?_⟩
  · exact .reply [_] _ (by intro x hx; simp at hx; subst hx; exact .inr (.inr ⟨rfl, by simp⟩)) (.inr (.inr (.inl ⟨rfl, rfl⟩)))
  · cases cm <;> cases labelled <;> decide +kernel

/-- That somebody is away (301), or a bot (335), is part of the reply to WHOIS.  Without labels every client is sent it. -/
theorem C118_away_violated (cm : CaseMapping) (m : Msg) (hm : m.command = b!"301" ∨ m.command = b!"335") :
    heardIn cm [.login 1, .login 2, .query 1 (whoisOf b!"ann") 5, .says 0 m 6] 2 = [m] := by
  obtain ⟨c, ps⟩ := m
  rcases hm with h | h <;> (dsimp only at h; subst h; cases cm <;> rfl)

/-- Without labels, what the server says to the command of a client that has gone is sent to all others, if it is a refusal. -/
theorem C118_gone_violated (cm : CaseMapping) (m : Msg) (hm : m.command = b!"263") (nick reason : Str) (hp : m.params = [nick, b!"LIST", reason]) :
    heardIn cm [.login 1, .login 2, .query 1 ⟨b!"LIST", []⟩ 5, .gone 1, .says 0 m 6] 2 = [m] := by
  obtain ⟨c, ps⟩ := m
  dsimp only at hm hp; subst hm; subst hp; cases cm <;> rfl

/-- A line of the reply to WHO with the distance, but no real name after it, is not passed on. -/
theorem C118_who_violated (cm : CaseMapping) (id : Nat) (m : Msg) (hm : m.command = b!"352")
    (hp : m.params = [b!"me", b!"#c", b!"u", b!"h", b!"s", b!"n", b!"H", b!"0"]) :
    heardIn cm [.login 1, .query 1 ⟨b!"WHO", [b!"#c"]⟩ 5, .says id m 6] 1 = [] := by
  obtain ⟨c, ps⟩ := m
  dsimp only at hm hp; subst hm; subst hp; cases cm <;> rfl

/-- WHOIS for somebody by a server that does not exist is answered with the name of the server.  Without labels all clients
are sent it, and no other WHOIS gets to the server: here that of the second client. -/
theorem C118_server_violated (cm : CaseMapping) (m : Msg) (hm : m.command = b!"402") (hp : m.params = [b!"me", b!"no.where", b!"No such server"]) :
    heardIn cm [.login 1, .login 2, .query 1 ⟨b!"WHOIS", [b!"no.where", b!"ann"]⟩ 5, .says 0 m 6] 2 = [m] ∧
    (qrStep cm ([QrOp.login 1, .login 2, .query 1 ⟨b!"WHOIS", [b!"no.where", b!"ann"]⟩ 5, .says 0 m 6].foldl
      (fun st op => (qrStep cm st op).1) ⟨[], []⟩) (.query 2 (whoisOf b!"ann") 7)).2 = [] := by
  obtain ⟨c, ps⟩ := m
  dsimp only at hm hp; subst hm; subst hp; cases cm <;> decide +kernel

/-- An answer to REGISTER without the name of the account is not passed on: the client that asked is told nothing. -/
theorem C118_register_violated (cm : CaseMapping) (id : Nat) (q m : Msg) (account mail pass result : Str)
    (hq : q = ⟨b!"REGISTER", [account, mail, pass]⟩) (hm : m = ⟨b!"REGISTER", [result]⟩) :
    heardIn cm [.login 1, .query 1 q 5, .says id m 6] 1 = [] := by
  subst hq; subst hm; cases cm <;> rfl

example (cm : CaseMapping) : heardIn cm [.login 1, .query 1 ⟨b!"REGISTER", [b!"ann", b!"*", b!"secret"]⟩ 5,
    .says 0 ⟨b!"REGISTER", [b!"SUCCESS", b!"ann", b!"Account created"]⟩ 6] 1 =
    [⟨b!"REGISTER", [b!"SUCCESS", b!"ann", b!"Account created"]⟩] := by
  cases cm <;> rfl

end Verif.Props
