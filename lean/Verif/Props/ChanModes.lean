import Verif.Model.ChanModes
import Verif.Props.Modes
import Verif.Props.ModeFormat
import Verif.Proof.Util

/-! # C108: what the clients know of the modes of a channel -/

namespace Verif.Props
open Verif.Model Verif.Spec Verif.Proof

/-! ## Specification -/

/-- The modes after a change, read by the server's table (C05). -/
def readModes (kind : Byte → LetterKind) (before : Byte → Option Str) (modes : Str) (args : List Str) : Byte → Option Str :=
  match signedLetters none modes with
  | none => before
  | some l => fun x => modeAfter kind x (before x) (attributed kind l args)

/-- No modes. -/
def noChanModes : Byte → Option Str := fun _ => none

/-- What someone knows of a channel: they are not on it, they are on it and do not know its modes, or they know them. -/
abbrev ChanKnowledge := Option (Option (Byte → Option Str))

/-- What the server says: its messages on the modes, since the user joined. -/
def chSaidStep (kind : Byte → LetterKind) (k : ChanKnowledge) : CoOp → ChanKnowledge
  | .joined => some none
  | .left => none
  | .mode modes args => k.map (fun k => k.map (fun f => readModes kind f modes args))
  | .modeIs _ rest => k.map (fun _ => some (readModes kind noChanModes (rest.head?.getD []) rest.tail))
  | _ => k

/-- What the server has said. -/
def chSaid (kind : Byte → LetterKind) (ops : List CoOp) : ChanKnowledge := ops.foldl (chSaidStep kind) none

/-- What a client learns from a message. -/
def chHeardStep (kind : Byte → LetterKind) (k : ChanKnowledge) (m : Msg) : ChanKnowledge :=
  if m.command = b!"JOIN" then some none
  else if m.command = b!"PART" then none
  else if m.command = b!"MODE" then
    k.map (fun k => k.map (fun f => readModes kind f ((m.params.drop 1).head?.getD []) (m.params.drop 2)))
  else if m.command = b!"324" then
    k.map (fun _ => some (readModes kind noChanModes ((m.params.drop 2).head?.getD []) (m.params.drop 3)))
  else k

/-- What a client has learnt. -/
def chHeard (kind : Byte → LetterKind) (out : List Msg) : ChanKnowledge := out.foldl (chHeardStep kind) none

/-- A line the server may send: letters follow a sign and are ASCII, and the letters for the status of a member name a
member. -/
def LineOK (kind : Byte → LetterKind) (modes : Str) (args : List Str) : Prop :=
  (∀ c ∈ modes, c < 128) ∧ ∃ letters, signedLetters none modes = some letters ∧
    ∀ c ∈ attributed kind letters args, kind c.letter = .membership → c.arg ≠ none

/-- The server keeps to its table, and when it lists the modes again, they are as it has said. -/
def ServerOK (kind : Byte → LetterKind) (ops : List CoOp) : Prop :=
  (∀ modes args, CoOp.mode modes args ∈ ops → LineOK kind modes args) ∧
  (∀ nick rest, CoOp.modeIs nick rest ∈ ops → LineOK kind (rest.head?.getD []) rest.tail) ∧
  ∀ pre nick rest post f, ops = pre ++ CoOp.modeIs nick rest :: post → chSaid kind pre = some (some f) →
    readModes kind noChanModes (rest.head?.getD []) rest.tail = f

/-- The time of creation, as the server last told since the user joined; empty if it did not. -/
def createdSaid (ops : List CoOp) : Str :=
  ops.foldl (fun t op => match op with
    | .joined => []
    | .created _ time => time
    | _ => t) []

/-! ## Proofs -/

private theorem said_snoc (kind : Byte → LetterKind) (ops : List CoOp) (op : CoOp) :
    chSaid kind (ops ++ [op]) = chSaidStep kind (chSaid kind ops) op := by
  unfold chSaid; rw [List.foldl_append]; rfl

private theorem heard_append (kind : Byte → LetterKind) (a b : List Msg) :
    chHeard kind (a ++ b) = b.foldl (chHeardStep kind) (chHeard kind a) := by
  unfold chHeard; rw [List.foldl_append]

private theorem signed_mem {s : Str} {l : List (Byte × Bool)} {b : Option Bool} (h : signedLetters b s = some l) :
    ∀ p ∈ l, p.1 ∈ s := by
  induction s generalizing b l with
  | nil => unfold signedLetters at h; cases h; simp
  | cons c s ih =>
    unfold signedLetters at h
    split at h
    · cases ‹_ = []›
    · rename_i e
      cases e
      intro p hp; exact List.mem_cons_of_mem _ (ih h p hp)
    · rename_i e
      cases e
      intro p hp; exact List.mem_cons_of_mem _ (ih h p hp)
    · rename_i e
      cases e
      cases b with
      | none => cases h
      | some b =>
        dsimp only at h
        cases h' : signedLetters (some b) s with
        | none => rw [h'] at h; cases h
        | some l' =>
          rw [h'] at h
          have := Option.some.inj h
          subst this
          intro p hp
          rcases List.mem_cons.1 hp with rfl | hp
          · simp
          · exact List.mem_cons_of_mem _ (ih h' p hp)

private theorem modeAfter_other (kind : Byte → LetterKind) (x : Byte) (l : List Change) (h : ∀ c ∈ l, c.letter ≠ x) (b : Option Str) :
    modeAfter kind x b l = b := by
  induction l generalizing b with
  | nil => rfl
  | cons c l ih =>
    unfold modeAfter
    rw [if_neg (by intro hc; exact h c (by simp) hc.1)]
    exact ih (fun d hd => h d (by simp [hd])) b

private theorem attributed_letter {kind : Byte → LetterKind} {l : List (Byte × Bool)} {args : List Str} {c : Change}
    (h : c ∈ attributed kind l args) : ∃ p ∈ l, p.1 = c.letter := by
  unfold attributed at h
  obtain ⟨i, hi, rfl⟩ := List.mem_mapIdx.1 h
  exact ⟨l[i], List.getElem_mem _, rfl⟩

private theorem read_ascii {kind : Byte → LetterKind} {f : Byte → Option Str} {s : Str} {args : List Str} (h : LineOK kind s args)
    (x : Byte) (hx : 128 ≤ x) (hf : f x = none) : readModes kind f s args x = none := by
  obtain ⟨ha, l, hs, -⟩ := h
  unfold readModes
  rw [hs]
  dsimp only
  rw [modeAfter_other, hf]
  intro c hc e
  obtain ⟨p, hp, hpe⟩ := attributed_letter hc
  have := ha _ (signed_mem hs p hp)
  omega

private theorem apply_read (env : ModeEnv) (ch : ChanModeState) (s : Str) (args : List Str) (h : LineOK (kindOf env) s args) :
    (applyChannelModes env ch s args).2 = true ∧
    (ch.modes = none → (applyChannelModes env ch s args).1.modes = none) ∧
    ∀ m, ch.modes = some m → ModesFit (kindOf env) m → ∃ m', (applyChannelModes env ch s args).1.modes = some m' ∧
      GoMap.get m' = readModes (kindOf env) (GoMap.get m) s args ∧ ModesFit (kindOf env) m' := by
  obtain ⟨-, l, hs, hall⟩ := h
  have hok : (applyChannelModes env ch s args).2 = true := (C05_accepts_iff env ch s args).2 ⟨l, hs, hall⟩
  refine ⟨hok, ?_, ?_⟩
  · intro hn
    have h1 := (applyLoop_ok env args s ch none 0 l hs).1
    rw [← attributed_eq] at h1
    have h1 := h1 hall
    have hwf : ∀ c ∈ attributed (kindOf env) l args, kindOf env c.letter = .flag → c.arg = none := by
      rw [attributed_eq]; exact attrFrom_flag_none _ _ _ _
    have h2 := (modes_foldl env _ ch hwf).1
    unfold applyChannelModes
    rw [h1]
    rw [hn] at h2
    simpa using h2
  · intro m hm hf
    obtain ⟨l', m', hs', hm', hg⟩ := C05_modes env ch s args hok m hm
    rw [hs] at hs'
    have := Option.some.inj hs'
    subst this
    refine ⟨m', hm', ?_, ?_⟩
    · funext x
      unfold readModes
      rw [hs, hg x]
    · obtain ⟨m'', h1, h2⟩ := loop_fit env args s ch none 0 m hm hf
      have : m'' = m' := by
        unfold applyChannelModes at hm'
        rw [h1] at hm'
        exact Option.some.inj hm'
      rw [← this]; exact h2

/-- The reply to a question, read by the table. -/
private theorem read_format (env : ModeEnv) (m cm : GoMap Byte Str) (hp : cm.Perm m) (hf : ModesFit (kindOf env) m)
    (ha : ∀ x, 128 ≤ x → GoMap.get m x = none) :
    readModes (kindOf env) noChanModes (formatChannelModes cm).1 (formatChannelModes cm).2 = GoMap.get m := by
  have hfc : ModesFit (kindOf env) cm := ⟨(hp.map (·.1)).nodup_iff.2 hf.1, fun p h => hf.2 p (hp.mem_iff.1 h)⟩
  have hasc : ∀ p ∈ cm, p.1 < 128 := by
    intro p hpm
    apply Classical.byContradiction
    intro hn
    have h1 := ha p.1 (by omega)
    have h2 : GoMap.get m p.1 ≠ none := by
      have hpm := hp.mem_iff.1 hpm
      clear hf ha hfc hp h1
      induction m with
      | nil => cases hpm
      | cons q m ih =>
        obtain ⟨qk, qv⟩ := q
        unfold GoMap.get
        by_cases e : qk = p.1
        · rw [if_pos e]; simp
        · rw [if_neg e]
          rcases List.mem_cons.1 hpm with h | h
          · rw [h] at e; exact absurd rfl e
          · exact ih h
    exact h2 h1
  obtain ⟨seen, h1, h2, h3⟩ := C05_told env cm hfc hasc ⟨CMMap.new .ascii, some []⟩ rfl
  obtain ⟨l, m', hs, hm', hg⟩ := C05_modes env _ _ _ h1 [] rfl
  rw [h2] at hm'
  have := Option.some.inj hm'
  subst this
  funext x
  unfold readModes
  rw [hs]
  dsimp only
  rw [← perm_get hp hfc.1, ← h3 x, hg x]
  rfl

/-- What is kept is what was said. -/
private def Kept (env : ModeEnv) (k : ChanKnowledge) (chan : Option CoChan) : Prop :=
  match chan with
  | none => k = none
  | some ch => match ch.st.modes with
    | none => k = some none
    | some m => k = some (some (GoMap.get m)) ∧ ModesFit (kindOf env) m ∧ ∀ x, 128 ≤ x → GoMap.get m x = none

/-- What a client knows. -/
private def Knows (env : ModeEnv) (k : ChanKnowledge) (st : CoState) (c : CoClient) : Prop :=
  (st.detached = true → chHeard (kindOf env) c.out = none) ∧
  (st.detached = false → st.chan.isSome = true → (chHeard (kindOf env) c.out).isSome = true) ∧
  ∀ b, chHeard (kindOf env) c.out = some b → b = none ∨ k = some b

private def CoInv (env : ModeEnv) (k : ChanKnowledge) (st : CoState) : Prop :=
  Kept env k st.chan ∧ ∀ c ∈ st.clients, Knows env k st c

private theorem forward_mem {st : CoState} {m : Msg} {c : CoClient} (h : c ∈ (coForward st m).clients) :
    ∃ d ∈ st.clients, c = { d with out := d.out ++ [m] } := by
  obtain ⟨d, hd, rfl⟩ := List.mem_map.1 h
  exact ⟨d, hd, rfl⟩

/-- The condition on one event. -/
private def OpOK (kind : Byte → LetterKind) (k : ChanKnowledge) : CoOp → Prop
  | .mode modes args => LineOK kind modes args
  | .modeIs _ rest => LineOK kind (rest.head?.getD []) rest.tail ∧
    ∀ f, k = some (some f) → readModes kind noChanModes (rest.head?.getD []) rest.tail = f
  | _ => True

private theorem inv_forward_join (env : ModeEnv) (k : ChanKnowledge) (name : Str) (st : CoState) (hk : Kept env k st.chan) (hd : st.detached = false) :
    CoInv env k (coForward st ⟨b!"JOIN", [name]⟩) := by
  refine ⟨hk, ?_⟩
  intro c hc
  obtain ⟨d, -, rfl⟩ := forward_mem hc
  have e : chHeard (kindOf env) (d.out ++ [⟨b!"JOIN", [name]⟩]) = some none := by rw [heard_append]; rfl
  refine ⟨?_, ?_, ?_⟩
  · intro h; change st.detached = true at h; rw [hd] at h; cases h
  · intro _ _; dsimp only; rw [e]; rfl
  · intro b hb; dsimp only at hb; rw [e] at hb; cases hb; exact Or.inl rfl

private theorem inv_forward_part (env : ModeEnv) (k : ChanKnowledge) (ps : List Str) (st : CoState) (hk : Kept env k st.chan)
    (hd : st.detached = true ∨ st.chan = none) : CoInv env k (coForward st ⟨b!"PART", ps⟩) := by
  refine ⟨hk, ?_⟩
  intro c hc
  obtain ⟨d, -, rfl⟩ := forward_mem hc
  have e : chHeard (kindOf env) (d.out ++ [⟨b!"PART", ps⟩]) = none := by rw [heard_append]; rfl
  refine ⟨fun _ => e, ?_, ?_⟩
  · intro h1 h2
    change st.detached = false at h1
    change st.chan.isSome = true at h2
    rcases hd with hd | hd
    · rw [hd] at h1; cases h1
    · rw [hd] at h2; cases h2
  · intro b hb; dsimp only at hb; rw [e] at hb; cases hb

private theorem modes_opt {α : Type} {o : Option α} {P : Prop} (h1 : o = none → P) (h2 : ∀ a, o = some a → P) : P := by
  cases o with
  | none => exact h1 rfl
  | some a => exact h2 a rfl

private theorem inv_step (env : ModeEnv) (ord : GoMap Byte Str → GoMap Byte Str) (hord : ∀ m, (ord m).Perm m) (cm : CaseMapping)
    (name : Str) (k : ChanKnowledge) (st : CoState) (op : CoOp) (hok : OpOK (kindOf env) k op) (h : CoInv env k st) :
    CoInv env (chSaidStep (kindOf env) k op) (coStep env ord cm name st op) := by
  obtain ⟨hk, hc⟩ := h
  cases op with
  | joined =>
    unfold coStep
    dsimp only
    split
    · rename_i hd
      refine ⟨rfl, ?_⟩
      intro c hm
      obtain ⟨h1, -, -⟩ := hc c hm
      refine ⟨h1, ?_, ?_⟩
      · intro h; dsimp only at h; rw [hd] at h; cases h
      · intro b hb; rw [h1 hd] at hb; cases hb
    · rename_i hd
      exact inv_forward_join env _ name _ rfl (by simpa using hd)
  | left =>
    unfold coStep
    dsimp only
    split
    · rename_i hd
      refine ⟨rfl, ?_⟩
      intro c hm
      obtain ⟨h1, -, -⟩ := hc c hm
      refine ⟨h1, ?_, ?_⟩
      · intro _ h; cases h
      · intro b hb; rw [h1 hd] at hb; cases hb
    · exact inv_forward_part env _ _ _ rfl (Or.inr rfl)
  | members members =>
    unfold coStep
    dsimp only
    refine ⟨?_, ?_⟩
    · show Kept env k _
      cases hch : st.chan with
      | none => rw [hch] at hk; exact hk
      | some ch => rw [hch] at hk; exact hk
    · intro c hm
      obtain ⟨h1, h2, h3⟩ := hc c hm
      refine ⟨h1, fun hd hs => h2 hd ?_, h3⟩
      cases hch : st.chan with
      | none => simp [hch] at hs
      | some ch => rfl
  | mode modes args =>
    unfold coStep
    show CoInv env _ (coMode env name st modes args)
    unfold coMode
    cases hch : st.chan with
    | none =>
      have hk' := hk
      rw [hch] at hk'
      dsimp only
      have hkn : k = none := hk'
      subst hkn
      exact ⟨by rw [hch]; rfl, hc⟩
    | some ch =>
      rw [hch] at hk
      obtain ⟨a1, a2, a3⟩ := apply_read env ch.st modes args hok
      dsimp only
      rw [if_neg (by rw [a1]; simp)]
      have hkept : Kept env (chSaidStep (kindOf env) k (.mode modes args))
          (some { ch with st := (applyChannelModes env ch.st modes args).1 }) := by
        unfold Kept at hk ⊢
        dsimp only at hk ⊢
        cases hm : ch.st.modes with
        | none =>
          rw [hm] at hk
          rw [a2 hm]
          dsimp only at hk ⊢
          rw [hk]
          rfl
        | some m =>
          rw [hm] at hk
          dsimp only at hk
          obtain ⟨m', e1, e2, e3⟩ := a3 m hm hk.2.1
          rw [e1]
          dsimp only
          refine ⟨?_, e3, ?_⟩
          · rw [hk.1, e2]; rfl
          · intro x hx
            rw [e2]
            exact read_ascii hok x hx (hk.2.2 x hx)
      split
      · rename_i hd
        refine ⟨hkept, ?_⟩
        intro c hm
        obtain ⟨h1, -, -⟩ := hc c hm
        refine ⟨h1, ?_, ?_⟩
        · intro h; dsimp only at h; rw [hd] at h; cases h
        · intro b hb; rw [h1 hd] at hb; cases hb
      · rename_i hd
        have hd : st.detached = false := by simpa using hd
        refine ⟨hkept, ?_⟩
        intro c hm
        obtain ⟨d, hdm, rfl⟩ := forward_mem hm
        obtain ⟨-, h2, h3⟩ := hc d hdm
        have e : chHeard (kindOf env) (d.out ++ [⟨b!"MODE", name :: modes :: args⟩]) =
            (chHeard (kindOf env) d.out).map (fun k => k.map (fun f => readModes (kindOf env) f modes args)) := by
          rw [heard_append]; rfl
        refine ⟨?_, ?_, ?_⟩
        · intro h; change st.detached = true at h; rw [hd] at h; cases h
        · intro _ _
          dsimp only
          rw [e, Option.isSome_map]
          exact h2 hd (by rw [hch]; rfl)
        · intro b hb
          dsimp only at hb
          rw [e] at hb
          cases hh : chHeard (kindOf env) d.out with
          | none => rw [hh] at hb; cases hb
          | some b0 =>
            rw [hh] at hb
            have hb := Option.some.inj hb
            rcases h3 b0 hh with r | r
            · subst r; subst hb; exact Or.inl rfl
            · subst hb; right; rw [r]; rfl
  | modeIs nick rest =>
    unfold coStep
    show CoInv env _ (coModeIs env name st nick rest)
    unfold coModeIs
    cases hch : st.chan with
    | none =>
      have hk' := hk
      rw [hch] at hk'
      dsimp only
      have hkn : k = none := hk'
      subst hkn
      exact ⟨by rw [hch]; rfl, hc⟩
    | some ch =>
      rw [hch] at hk
      obtain ⟨hline, hagain⟩ := hok
      obtain ⟨a1, -, a3⟩ := apply_read env { ch.st with modes := some [] } (rest.head?.getD []) rest.tail hline
      obtain ⟨m', e1, e2, e3⟩ := a3 [] rfl ⟨by simp, by simp⟩
      have hno : GoMap.get ([] : GoMap Byte Str) = noChanModes := rfl
      rw [hno] at e2
      have hsome : ∃ k0, k = some k0 := by
        unfold Kept at hk
        dsimp only at hk
        cases hm : ch.st.modes with
        | none => rw [hm] at hk; exact ⟨_, hk⟩
        | some m => rw [hm] at hk; exact ⟨_, hk.1⟩
      obtain ⟨k0, hk0⟩ := hsome
      have hnew : chSaidStep (kindOf env) k (.modeIs nick rest) = some (some (GoMap.get m')) := by
        rw [hk0, e2]; rfl
      have hkept : Kept env (chSaidStep (kindOf env) k (.modeIs nick rest))
          (some { ch with st := (applyChannelModes env { ch.st with modes := some [] } (rest.head?.getD []) rest.tail).1 }) := by
        unfold Kept
        dsimp only
        rw [e1]
        refine ⟨hnew, e3, ?_⟩
        intro x hx
        rw [e2]
        exact read_ascii hline x hx rfl
      dsimp only
      rw [if_neg (by rw [a1]; simp)]
      split
      · rename_i hf
        rw [Bool.and_eq_true] at hf
        have hd : st.detached = false := by simpa using hf.2
        refine ⟨hkept, ?_⟩
        intro c hm
        obtain ⟨d, hdm, rfl⟩ := forward_mem hm
        obtain ⟨-, h2, -⟩ := hc d hdm
        have e : chHeard (kindOf env) (d.out ++ [⟨b!"324", nick :: name :: rest⟩]) =
            (chHeard (kindOf env) d.out).map (fun _ => some (readModes (kindOf env) noChanModes (rest.head?.getD []) rest.tail)) := by
          rw [heard_append]
          have : ∀ rest : List Str, (nick :: name :: rest).drop 3 = rest.tail := by
            intro rest; cases rest <;> rfl
          show chHeardStep (kindOf env) (chHeard (kindOf env) d.out) ⟨b!"324", nick :: name :: rest⟩ = _
          unfold chHeardStep
          rw [if_neg (by simp), if_neg (by simp), if_neg (by simp), if_pos rfl]
          dsimp only
          rw [this]
          rfl
        refine ⟨?_, ?_, ?_⟩
        · intro h; change st.detached = true at h; rw [hd] at h; cases h
        · intro _ _
          dsimp only
          rw [e, Option.isSome_map]
          exact h2 hd (by rw [hch]; rfl)
        · intro b hb
          dsimp only at hb
          rw [e] at hb
          cases hh : chHeard (kindOf env) d.out with
          | none => rw [hh] at hb; cases hb
          | some b0 =>
            rw [hh] at hb
            have hb := Option.some.inj hb
            subst hb
            right
            rw [hnew, e2]
      · rename_i hf
        refine ⟨hkept, ?_⟩
        intro c hm
        obtain ⟨h1, h2, h3⟩ := hc c hm
        refine ⟨h1, fun hd hs => h2 hd (by rw [hch]; rfl), ?_⟩
        intro b hb
        rcases h3 b hb with r | r
        · exact Or.inl r
        · right
          cases b with
          | none =>
            exfalso
            apply hf
            rw [Bool.and_eq_true]
            constructor
            · unfold Kept at hk
              dsimp only at hk
              cases hm : ch.st.modes with
              | none => rfl
              | some m => rw [hm] at hk; rw [r] at hk; cases hk.1
            · cases hdd : st.detached with
              | false => rfl
              | true => rw [h1 hdd] at hb; cases hb
          | some f => rw [hnew, e2, hagain f r]
  | created nick time =>
    unfold coStep
    show CoInv env k (coCreated name st nick time)
    unfold coCreated
    cases hch : st.chan with
    | none => exact ⟨hk, hc⟩
    | some ch =>
      rw [hch] at hk
      dsimp only
      have hkept : Kept env k (some { ch with created := time }) := hk
      split
      · refine ⟨hkept, ?_⟩
        intro c hm
        obtain ⟨d, hdm, rfl⟩ := forward_mem hm
        obtain ⟨h1, h2, h3⟩ := hc d hdm
        have e : chHeard (kindOf env) (d.out ++ [⟨b!"329", [nick, name, time]⟩]) = chHeard (kindOf env) d.out := by
          rw [heard_append]; rfl
        refine ⟨fun hd => e.trans (h1 hd), fun hd _ => ?_, fun b hb => h3 b (e ▸ hb)⟩
        dsimp only
        rw [e]
        exact h2 hd (by rw [hch]; rfl)
      · refine ⟨hkept, ?_⟩
        intro c hm
        obtain ⟨h1, h2, h3⟩ := hc c hm
        exact ⟨h1, fun hd _ => h2 hd (by rw [hch]; rfl), h3⟩
  | detach =>
    unfold coStep
    dsimp only
    split
    · exact ⟨hk, hc⟩
    · exact inv_forward_part env _ _ _ hk (Or.inl rfl)
  | attach =>
    unfold coStep
    dsimp only
    split
    · exact ⟨hk, hc⟩
    · exact inv_forward_join env _ _ _ hk rfl
  | login num nick =>
    unfold coStep
    dsimp only
    split
    · exact ⟨hk, hc⟩
    · refine ⟨hk, ?_⟩
      intro c hm
      rcases List.mem_append.1 hm with hm | hm
      · exact hc c hm
      · rw [List.mem_singleton] at hm
        subst hm
        refine ⟨?_, ?_, ?_⟩
        · intro hd
          change st.detached = true at hd
          dsimp only
          rw [if_neg (by simp [hd])]
          rfl
        · intro hd hs
          change st.detached = false at hd
          change st.chan.isSome = true at hs
          dsimp only
          rw [if_pos (by simp [hd, hs])]
          rfl
        · intro b hb
          dsimp only at hb
          split at hb
          · have hb : some none = some b := hb
            cases hb
            exact Or.inl rfl
          · cases hb
  | logout num =>
    unfold coStep
    dsimp only
    exact ⟨hk, fun c hm => hc c (List.mem_filter.1 hm).1⟩
  | cMode num rest =>
    unfold coStep
    dsimp only
    cases hfind : st.clients.find? (fun c => c.num = num) with
    | none => exact ⟨hk, hc⟩
    | some c0 =>
      show CoInv env k (coClientMode ord name st c0 rest)
      unfold coClientMode
      dsimp only
      split
      · exact ⟨hk, hc⟩
      · cases hch : st.chan with
        | none => exact ⟨by rw [hch] at hk; exact hk, fun c hm => ⟨(hc c hm).1, fun _ h => by simp at h, (hc c hm).2.2⟩⟩
        | some ch =>
          dsimp only
          cases hm : ch.st.modes with
          | none => exact ⟨hk, hc⟩
          | some m =>
            rw [hch] at hk
            have hk2 := hk
            unfold Kept at hk2
            dsimp only at hk2
            rw [hm] at hk2
            dsimp only at hk2
            dsimp only
            refine ⟨hk, ?_⟩
            intro c hcm
            obtain ⟨d, hdm, rfl⟩ := List.mem_map.1 hcm
            obtain ⟨h1, h2, h3⟩ := hc d hdm
            rw [hch] at h2
            by_cases hn : d.num = c0.num
            · rw [if_pos hn]
              have e : chHeard (kindOf env) (d.out ++ ⟨b!"324", c0.nick :: name :: (formatChannelModes (ord m)).1 ::
                  (formatChannelModes (ord m)).2⟩ :: (if ch.created ≠ [] then [⟨b!"329", [c0.nick, name, ch.created]⟩] else [])) =
                  (chHeard (kindOf env) d.out).map (fun _ => some (GoMap.get m)) := by
                rw [heard_append, ← read_format env m (ord m) (hord m) hk2.2.1 hk2.2.2]
                split <;> rfl
              refine ⟨?_, ?_, ?_⟩
              · intro hd; dsimp only; rw [e, h1 hd]; rfl
              · intro hd hs; dsimp only; rw [e, Option.isSome_map]; exact h2 hd hs
              · intro b hb
                dsimp only at hb
                rw [e] at hb
                cases hh : chHeard (kindOf env) d.out with
                | none => rw [hh] at hb; cases hb
                | some b0 =>
                  rw [hh] at hb
                  have hb := Option.some.inj hb
                  subst hb
                  exact Or.inr hk2.1
            · rw [if_neg hn]
              exact ⟨h1, h2, h3⟩

private theorem serverOK_prefix {kind : Byte → LetterKind} {ops : List CoOp} {op : CoOp} (h : ServerOK kind (ops ++ [op])) :
    ServerOK kind ops ∧ OpOK kind (chSaid kind ops) op := by
  obtain ⟨h1, h2, h3⟩ := h
  refine ⟨⟨fun m a hm => h1 m a (by simp [hm]), fun n r hm => h2 n r (by simp [hm]), ?_⟩, ?_⟩
  · intro pre nick rest post f he hs
    exact h3 pre nick rest (post ++ [op]) f (by rw [he]; simp) hs
  · cases op with
    | mode modes args => exact h1 modes args (by simp)
    | modeIs nick rest =>
      exact ⟨h2 nick rest (by simp), fun f hf => h3 ops nick rest [] f rfl hf⟩
    | _ => trivial

private theorem run_snoc (env : ModeEnv) (ord : GoMap Byte Str → GoMap Byte Str) (cm : CaseMapping) (name : Str) (d : Bool)
    (ops : List CoOp) (op : CoOp) :
    coRun env ord cm name d (ops ++ [op]) = coStep env ord cm name (coRun env ord cm name d ops) op := by
  unfold coRun; rw [List.foldl_append]; rfl

private theorem inv_run (env : ModeEnv) (ord : GoMap Byte Str → GoMap Byte Str) (hord : ∀ m, (ord m).Perm m) (cm : CaseMapping)
    (name : Str) (d : Bool) (ops : List CoOp) (hok : ServerOK (kindOf env) ops) :
    CoInv env (chSaid (kindOf env) ops) (coRun env ord cm name d ops) := by
  induction ops using snocInd with
  | nil => exact ⟨rfl, by intro c hc; cases hc⟩
  | snoc ops op ih =>
    obtain ⟨h1, h2⟩ := serverOK_prefix hok
    rw [said_snoc, run_snoc]
    exact inv_step env ord hord cm name _ _ op h2 (ih h1)

private theorem created_kept (env : ModeEnv) (ord : GoMap Byte Str → GoMap Byte Str) (cm : CaseMapping) (name : Str) (d : Bool)
    (ops : List CoOp) : ∀ ch, (coRun env ord cm name d ops).chan = some ch → ch.created = createdSaid ops := by
  induction ops using snocInd with
  | nil => intro ch h; cases h
  | snoc ops op ih =>
    intro ch h
    rw [run_snoc] at h
    have hcs : createdSaid (ops ++ [op]) = match (generalizing := false) op with
        | .joined => []
        | .created _ time => time
        | _ => createdSaid ops := by
      unfold createdSaid; rw [List.foldl_append]; cases op <;> rfl
    rw [hcs]
    generalize coRun env ord cm name d ops = st at *
    cases op with
    | joined =>
      unfold coStep at h
      dsimp only at h
      split at h <;> (have := Option.some.inj h; subst this; rfl)
    | left =>
      unfold coStep at h
      dsimp only at h
      split at h <;> cases h
    | members members =>
      unfold coStep at h
      dsimp only at h
      cases hch : st.chan with
      | none => rw [hch] at h; cases h
      | some c0 =>
        rw [hch] at h
        have := Option.some.inj h
        subst this
        exact ih c0 hch
    | mode modes args =>
      have h : (coMode env name st modes args).chan = some ch := h
      unfold coMode at h
      cases hch : st.chan with
      | none => rw [hch] at h; dsimp only at h; rw [hch] at h; cases h
      | some c0 =>
        rw [hch] at h
        dsimp only at h
        split at h
        · have := Option.some.inj h; subst this; exact ih c0 hch
        · split at h <;> (have := Option.some.inj h; subst this; exact ih c0 hch)
    | modeIs nick rest =>
      have h : (coModeIs env name st nick rest).chan = some ch := h
      unfold coModeIs at h
      cases hch : st.chan with
      | none => rw [hch] at h; dsimp only at h; rw [hch] at h; cases h
      | some c0 =>
        rw [hch] at h
        dsimp only at h
        split at h
        · have := Option.some.inj h; subst this; exact ih c0 hch
        · split at h <;> (have := Option.some.inj h; subst this; exact ih c0 hch)
    | created nick time =>
      have h : (coCreated name st nick time).chan = some ch := h
      unfold coCreated at h
      cases hch : st.chan with
      | none => rw [hch] at h; dsimp only at h; rw [hch] at h; cases h
      | some c0 =>
        rw [hch] at h
        dsimp only at h
        split at h <;> (have := Option.some.inj h; subst this; rfl)
    | detach => unfold coStep at h; dsimp only at h; split at h <;> exact ih ch h
    | attach => unfold coStep at h; dsimp only at h; split at h <;> exact ih ch h
    | login num nick => unfold coStep at h; dsimp only at h; split at h <;> exact ih ch h
    | logout num => exact ih ch h
    | cMode num rest =>
      unfold coStep at h
      dsimp only at h
      cases hfind : st.clients.find? (fun c => c.num = num) with
      | none => rw [hfind] at h; exact ih ch h
      | some c0 =>
        rw [hfind] at h
        have h : (coClientMode ord name st c0 rest).chan = some ch := h
        unfold coClientMode at h
        dsimp only at h
        split at h
        · exact ih ch h
        · cases hch : st.chan with
          | none => rw [hch] at h; dsimp only at h; cases h
          | some c1 =>
            rw [hch] at h
            dsimp only at h
            cases hm : c1.st.modes with
            | none => rw [hm] at h; dsimp only at h; exact ih ch h
            | some m => rw [hm] at h; dsimp only at h; exact ih ch (hch.trans h)

/-! ## Theorems -/

/-- A client that knows the modes of the channel knows those the server has said: at every moment, whatever was set, asked,
detached and attached before. -/
theorem C108_known (env : ModeEnv) (ord : GoMap Byte Str → GoMap Byte Str) (hord : ∀ m, (ord m).Perm m) (cm : CaseMapping)
    (name : Str) (d : Bool) (ops : List CoOp) (hok : ServerOK (kindOf env) ops) (c : CoClient)
    (hc : c ∈ (coRun env ord cm name d ops).clients) (f : Byte → Option Str)
    (hf : chHeard (kindOf env) c.out = some (some f)) : chSaid (kindOf env) ops = some (some f) := by
  rcases ((inv_run env ord hord cm name d ops hok).2 c hc).2.2 (some f) hf with h | h
  · cases h
  · exact h

/-- Once the server has listed the modes, every client knows them that is on the channel when the list comes; so those are
answered who asked too early. -/
theorem C108_listed (env : ModeEnv) (ord : GoMap Byte Str → GoMap Byte Str) (hord : ∀ m, (ord m).Perm m) (cm : CaseMapping)
    (name : Str) (d : Bool) (ops : List CoOp) (nick : Str) (rest : List Str) (hok : ServerOK (kindOf env) (ops ++ [.modeIs nick rest]))
    (hfirst : chSaid (kindOf env) ops = some none) (hd : (coRun env ord cm name d ops).detached = false) (c : CoClient)
    (hc : c ∈ (coRun env ord cm name d (ops ++ [.modeIs nick rest])).clients) :
    chHeard (kindOf env) c.out = some (some (readModes (kindOf env) noChanModes (rest.head?.getD []) rest.tail)) := by
  obtain ⟨hpre, hop⟩ := serverOK_prefix hok
  have hi := inv_run env ord hord cm name d ops hpre
  have hi' := inv_run env ord hord cm name d _ hok
  rw [run_snoc] at hc
  have hs : coStep env ord cm name (coRun env ord cm name d ops) (.modeIs nick rest) =
    coModeIs env name (coRun env ord cm name d ops) nick rest := rfl
  rw [hs] at hc
  generalize coRun env ord cm name d ops = st at *
  rw [hfirst] at hi
  obtain ⟨hk, hcl⟩ := hi
  unfold coModeIs at hc
  cases hch : st.chan with
  | none => rw [hch] at hk; cases hk
  | some ch =>
    rw [hch] at hk hc
    obtain ⟨a1, -, -⟩ := apply_read env { ch.st with modes := some [] } (rest.head?.getD []) rest.tail hop.1
    have hnone : ch.st.modes = none := by
      unfold Kept at hk
      dsimp only at hk
      cases hm : ch.st.modes with
      | none => rfl
      | some m => rw [hm] at hk; cases hk.1
    dsimp only at hc
    rw [if_neg (by rw [a1]; simp), if_pos (by simp [hnone, hd])] at hc
    obtain ⟨e, hem, rfl⟩ := forward_mem hc
    have h2 := (hcl e hem).2.1 hd (by rw [hch]; rfl)
    obtain ⟨b, hb⟩ := Option.isSome_iff_exists.1 h2
    rw [heard_append, hb]
    show chHeardStep (kindOf env) (some b) ⟨b!"324", nick :: name :: rest⟩ = _
    unfold chHeardStep
    rw [if_neg (by simp), if_neg (by simp), if_neg (by simp), if_pos rfl]
    have : ∀ rest : List Str, (nick :: name :: rest).drop 3 = rest.tail := by
      intro rest; cases rest <;> rfl
    dsimp only
    rw [this]
    rfl

/-- When the modes have been listed, a client that asks knows them, and the time of creation if the server has told it;
nothing is sent to the others or to the server. -/
theorem C108_asked (env : ModeEnv) (ord : GoMap Byte Str → GoMap Byte Str) (hord : ∀ m, (ord m).Perm m) (cm : CaseMapping)
    (name : Str) (d : Bool) (ops : List CoOp) (hok : ServerOK (kindOf env) ops) (f : Byte → Option Str)
    (hsaid : chSaid (kindOf env) ops = some (some f)) (hd : (coRun env ord cm name d ops).detached = false) (c : CoClient)
    (hc : (coRun env ord cm name d ops).clients.find? (fun e => e.num = c.num) = some c) (rest : List Str) (hr : rest.head?.getD [] = []) :
    ∃ modes args tail, readModes (kindOf env) noChanModes modes args = f ∧
      tail = (match createdSaid ops with
        | [] => []
        | time => [⟨b!"329", [c.nick, name, time]⟩]) ∧
      (coStep env ord cm name (coRun env ord cm name d ops) (.cMode c.num rest)).clients =
        (coRun env ord cm name d ops).clients.map (fun e => if e.num = c.num then
          { e with out := e.out ++ ⟨b!"324", c.nick :: name :: modes :: args⟩ :: tail } else e) ∧
      (coStep env ord cm name (coRun env ord cm name d ops) (.cMode c.num rest)).sent = (coRun env ord cm name d ops).sent ∧
      ∀ e ∈ (coStep env ord cm name (coRun env ord cm name d ops) (.cMode c.num rest)).clients, e.num = c.num →
        chHeard (kindOf env) e.out = some (some f) := by
  have hi := inv_run env ord hord cm name d ops hok
  have hcr := created_kept env ord cm name d ops
  generalize hst : coRun env ord cm name d ops = st at *
  rw [hsaid] at hi
  obtain ⟨hk, hcl⟩ := hi
  cases hch : st.chan with
  | none => rw [hch] at hk; cases hk
  | some ch =>
    rw [hch] at hk
    cases hm : ch.st.modes with
    | none => unfold Kept at hk; dsimp only at hk; rw [hm] at hk; cases hk
    | some m =>
      unfold Kept at hk
      dsimp only at hk
      rw [hm] at hk
      obtain ⟨hk1, hk2, hk3⟩ := hk
      have hf : f = GoMap.get m := Option.some.inj (Option.some.inj hk1)
      have hread := read_format env m (ord m) (hord m) hk2 hk3
      have htail : (if ch.created ≠ [] then [⟨b!"329", [c.nick, name, ch.created]⟩] else [] : List Msg) =
          (match createdSaid ops with
          | [] => []
          | time => [⟨b!"329", [c.nick, name, time]⟩]) := by
        rw [hcr ch hch]
        cases createdSaid ops <;> simp
      have hstep : coStep env ord cm name st (.cMode c.num rest) = { st with clients := st.clients.map (fun e => if e.num = c.num then
          { e with out := e.out ++ ⟨b!"324", c.nick :: name :: (formatChannelModes (ord m)).1 :: (formatChannelModes (ord m)).2⟩ ::
            (if ch.created ≠ [] then [⟨b!"329", [c.nick, name, ch.created]⟩] else []) } else e) } := by
        unfold coStep
        dsimp only
        rw [hc]
        show coClientMode ord name st c rest = _
        unfold coClientMode
        dsimp only
        rw [if_neg (by rw [hr]; simp), hch]
        dsimp only
        rw [hm]
      refine ⟨(formatChannelModes (ord m)).1, (formatChannelModes (ord m)).2, _, ?_, htail, ?_, ?_, ?_⟩
      · rw [hf, hread]
      · rw [hstep]
      · rw [hstep]
      · intro e he hnum
        rw [hstep] at he
        obtain ⟨e0, he0, rfl⟩ := List.mem_map.1 he
        have hn0 : e0.num = c.num := by
          split at hnum
          · assumption
          · exact hnum
        rw [if_pos hn0]
        have h2 := (hcl e0 he0).2.1 hd (by rw [hch]; rfl)
        obtain ⟨b, hb⟩ := Option.isSome_iff_exists.1 h2
        rw [heard_append, hb, hf, ← hread]
        split <;> rfl

/-- A client that changes the modes has this passed on to the server in its own words, and nobody else is told anything
until the server answers. -/
theorem C108_change (env : ModeEnv) (ord : GoMap Byte Str → GoMap Byte Str) (cm : CaseMapping) (name : Str) (st : CoState)
    (c : CoClient) (hc : st.clients.find? (fun e => e.num = c.num) = some c) (modes : Str) (args : List Str) (hm : modes ≠ []) :
    coStep env ord cm name st (.cMode c.num (modes :: args)) =
      { st with sent := st.sent ++ [(some c.num, ⟨b!"MODE", name :: modes :: args⟩)] } := by
  unfold coStep
  dsimp only
  rw [hc]
  show coClientMode ord name st c (modes :: args) = _
  unfold coClientMode
  dsimp only
  rw [if_pos (by simpa using hm)]
  rfl

/-- A question about a channel the bouncer is not on is passed on to the server as well. -/
theorem C108_elsewhere (env : ModeEnv) (ord : GoMap Byte Str → GoMap Byte Str) (hord : ∀ m, (ord m).Perm m) (cm : CaseMapping)
    (name : Str) (d : Bool) (ops : List CoOp) (hok : ServerOK (kindOf env) ops) (hno : chSaid (kindOf env) ops = none)
    (c : CoClient) (hc : (coRun env ord cm name d ops).clients.find? (fun e => e.num = c.num) = some c) :
    (coStep env ord cm name (coRun env ord cm name d ops) (.cMode c.num [])).sent =
      (coRun env ord cm name d ops).sent ++ [(some c.num, ⟨b!"MODE", [name]⟩)] ∧
    (coStep env ord cm name (coRun env ord cm name d ops) (.cMode c.num [])).clients = (coRun env ord cm name d ops).clients := by
  have hi := (inv_run env ord hord cm name d ops hok).1
  rw [hno] at hi
  generalize coRun env ord cm name d ops = st at *
  have hch : st.chan = none := by
    cases hch : st.chan with
    | none => rfl
    | some ch =>
      rw [hch] at hi
      unfold Kept at hi
      dsimp only at hi
      cases hm : ch.st.modes with
      | none => rw [hm] at hi; cases hi
      | some m => rw [hm] at hi; cases hi.1
  unfold coStep
  dsimp only
  rw [hc]
  show (coClientMode ord name st c []).sent = _ ∧ (coClientMode ord name st c []).clients = _
  unfold coClientMode
  dsimp only
  rw [if_neg (by simp), hch]
  exact ⟨rfl, rfl⟩

/-- The bouncer itself asks for the modes once for each time the user joins, and never otherwise. -/
theorem C108_queried (env : ModeEnv) (ord : GoMap Byte Str → GoMap Byte Str) (cm : CaseMapping) (name : Str) (d : Bool) (ops : List CoOp) :
    (coRun env ord cm name d ops).sent.filter (fun p => p.1.isNone) =
      List.replicate (ops.countP (fun op => match op with | .joined => true | _ => false)) (none, ⟨b!"MODE", [name]⟩) := by
  induction ops using snocInd with
  | nil => rfl
  | snoc ops op ih =>
    rw [run_snoc, List.countP_append]
    generalize coRun env ord cm name d ops = st at *
    cases op with
    | joined =>
      have : (coStep env ord cm name st .joined).sent = st.sent ++ [(none, ⟨b!"MODE", [name]⟩)] := by
        unfold coStep
        dsimp only
        split <;> rfl
      rw [this, List.filter_append, ih, List.replicate_append_replicate.symm]
      rfl
    | cMode num rest =>
      have : (coStep env ord cm name st (.cMode num rest)).sent.filter (fun p => p.1.isNone) = st.sent.filter (fun p => p.1.isNone) := by
        unfold coStep
        dsimp only
        cases st.clients.find? (fun c => c.num = num) with
        | none => rfl
        | some c =>
          show (coClientMode ord name st c rest).sent.filter _ = _
          unfold coClientMode
          dsimp only
          split
          · simp
          · cases st.chan with
            | none => simp
            | some ch =>
              dsimp only
              cases ch.st.modes <;> rfl
      rw [this, ih]
      rfl
    | _ =>
      refine Eq.trans (congrArg (List.filter _) ?_) ih
      first
        | rfl
        | (unfold coStep; dsimp only; split <;> rfl)
        | (unfold coStep; dsimp only; unfold coMode; split <;> first | rfl | (dsimp only; split <;> first | rfl | (split <;> rfl)))
        | (unfold coStep; dsimp only; unfold coModeIs; split <;> first | rfl | (dsimp only; split <;> first | rfl | (split <;> rfl)))
        | (unfold coStep; dsimp only; unfold coCreated; split <;> first | rfl | (dsimp only; split <;> rfl))

/-- The time of creation is told to every client when the server first tells it. -/
theorem C108_created (env : ModeEnv) (ord : GoMap Byte Str → GoMap Byte Str) (hord : ∀ m, (ord m).Perm m) (cm : CaseMapping)
    (name : Str) (d : Bool) (ops : List CoOp) (hok : ServerOK (kindOf env) ops) (hon : chSaid (kindOf env) ops ≠ none)
    (hfirst : createdSaid ops = []) (hd : (coRun env ord cm name d ops).detached = false) (nick time : Str) :
    (coRun env ord cm name d (ops ++ [.created nick time])).clients =
      (coRun env ord cm name d ops).clients.map (fun c => { c with out := c.out ++ [⟨b!"329", [nick, name, time]⟩] }) := by
  have hi := (inv_run env ord hord cm name d ops hok).1
  have hcr := created_kept env ord cm name d ops
  rw [run_snoc]
  generalize coRun env ord cm name d ops = st at *
  show (coCreated name st nick time).clients = _
  unfold coCreated
  cases hch : st.chan with
  | none => rw [hch] at hi; exact absurd hi hon
  | some ch =>
    dsimp only
    rw [if_pos (by simp [hcr ch hch, hfirst, hd])]
    rfl

private def coEnv : ModeEnv := ⟨[⟨111, 64⟩], stdChannelModes⟩

/-- A client that asks for the modes of a detached channel before the server has listed them never gets an answer, although
the server answers the bouncer. -/
theorem C108_detached_violated : ∃ (ops : List CoOp) (c : CoClient), ServerOK (kindOf coEnv) ops ∧
    CoOp.cMode 1 [] ∈ ops ∧ (coRun coEnv id .rfc1459 b!"#c" true ops).clients = [c] ∧
    chSaid (kindOf coEnv) ops = some (some (readModes (kindOf coEnv) noChanModes b!"+nt" [])) ∧
    (∀ m ∈ c.out, m.command ≠ b!"324") ∧ (coRun coEnv id .rfc1459 b!"#c" true ops).sent = [(none, ⟨b!"MODE", [b!"#c"]⟩)] := by
  refine ⟨[.login 1 b!"al", .joined, .cMode 1 [], .modeIs b!"al" [b!"+nt"]], ⟨1, b!"al", []⟩, ⟨?_, ?_, ?_⟩, by simp, rfl, rfl, by simp, rfl⟩
  · intro modes args h; simp at h
  · intro nick rest h
    simp only [List.mem_cons, reduceCtorEq, CoOp.modeIs.injEq, List.not_mem_nil, or_false, false_or] at h
    obtain ⟨-, rfl⟩ := h
    exact ⟨by decide, [(110, true), (116, true)], rfl, by decide⟩
  · intro pre nick rest post f he hs
    match pre, he with
    | [], he => simp at he
    | [_], he => simp at he
    | [_, _], he => simp at he
    | [a, b, c], he =>
      simp only [List.cons_append, List.nil_append, List.cons.injEq] at he
      obtain ⟨rfl, rfl, rfl, -, -⟩ := he
      cases hs
    | _ :: _ :: _ :: _ :: pre, he =>
      simp only [List.cons_append, List.cons.injEq] at he
      simp at he

/-- When the server lists other modes than it has said, the clients are not told: the bouncer keeps the new list for
itself, and those who do not ask again go on with the old one. -/
theorem C108_relisted_violated : ∃ (ops : List CoOp) (c : CoClient), (coRun coEnv id .rfc1459 b!"#c" false ops).clients = [c] ∧
    chHeard (kindOf coEnv) c.out = some (some (readModes (kindOf coEnv) noChanModes b!"+nt" [])) ∧
    chSaid (kindOf coEnv) ops = some (some (readModes (kindOf coEnv) noChanModes b!"+i" [])) ∧
    readModes (kindOf coEnv) noChanModes b!"+nt" [] 105 = none ∧ readModes (kindOf coEnv) noChanModes b!"+i" [] 105 = some [] :=
  ⟨[.login 1 b!"al", .joined, .modeIs b!"al" [b!"+nt"], .modeIs b!"al" [b!"+i"]],
    ⟨1, b!"al", [⟨b!"JOIN", [b!"#c"]⟩, ⟨b!"324", [b!"al", b!"#c", b!"+nt"]⟩]⟩, rfl, rfl, rfl, by decide, by decide⟩

example : ∃ c ∈ (coRun coEnv id .rfc1459 b!"#c" false [.login 1 b!"al", .joined, .modeIs b!"al" [b!"+ntk", b!"key"],
      .mode b!"+ol-n" [b!"al", b!"20"], .login 2 b!"al", .created b!"al" b!"1700000000", .cMode 2 []]).clients, c.num = 2 ∧
    c.out = [⟨b!"JOIN", [b!"#c"]⟩, ⟨b!"329", [b!"al", b!"#c", b!"1700000000"]⟩, ⟨b!"324", [b!"al", b!"#c", b!"+klt", b!"key", b!"20"]⟩,
      ⟨b!"329", [b!"al", b!"#c", b!"1700000000"]⟩] := by
  decide

end Verif.Props
