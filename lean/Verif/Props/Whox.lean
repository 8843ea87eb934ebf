import Verif.Model.Whox
import Verif.Proof.Line
import Verif.Spec.Whox

/-! # C10: WHOX replies round-trip -/

namespace Verif.Props
open Verif.Model Verif.Spec Verif.Proof

/-- The reply content a reader is entitled to: the requested fields as shown, the others empty. -/
def whoxExpected (fields : Str) (i : WHOXInfo) : WHOXInfo where
  token := if 116 ∈ fields then i.token else []
  channel := if 99 ∈ fields then shownChannel i.channel else []
  username := if 117 ∈ fields then i.username else []
  hostname := if 104 ∈ fields then shownHost i.hostname else []
  server := if 115 ∈ fields then i.server else []
  nickname := if 110 ∈ fields then i.nickname else []
  flags := if 102 ∈ fields then i.flags else []
  account := if 97 ∈ fields then shownAccount i.account else []
  realname := if 114 ∈ fields then i.realname else []

private theorem host_eq (h : Str) : whoxHostname h = shownHost h := by
  cases h with
  | nil => rfl
  | cons c h =>
    by_cases hc : c = 58
    · subst hc; rfl
    · simp only [whoxHostname, List.head?_cons, Option.some.injEq, hc, if_false]
      unfold shownHost
      split
      · rename_i heq; exact absurd (List.cons.inj heq).1 hc
      · rfl

private theorem acct_eq (a : Str) :
    (if a ≠ [] ∧ a ≠ b!"*" then a else b!"0") = shownAccount a := by
  unfold shownAccount
  by_cases h1 : a = [] <;> by_cases h2 : a = b!"*" <;> simp [h1, h2]

private theorem set_t (p : Prop) [Decidable p] (t c u h s n f a r v : Str) :
    (if p then WHOXInfo.set ⟨t, c, u, h, s, n, f, a, r⟩ 116 v else ⟨t, c, u, h, s, n, f, a, r⟩)
      = ⟨if p then v else t, c, u, h, s, n, f, a, r⟩ := by
  split <;> rfl

private theorem set_c (p : Prop) [Decidable p] (t c u h s n f a r v : Str) :
    (if p then WHOXInfo.set ⟨t, c, u, h, s, n, f, a, r⟩ 99 v else ⟨t, c, u, h, s, n, f, a, r⟩)
      = ⟨t, if p then v else c, u, h, s, n, f, a, r⟩ := by
  split <;> rfl

private theorem set_u (p : Prop) [Decidable p] (t c u h s n f a r v : Str) :
    (if p then WHOXInfo.set ⟨t, c, u, h, s, n, f, a, r⟩ 117 v else ⟨t, c, u, h, s, n, f, a, r⟩)
      = ⟨t, c, if p then v else u, h, s, n, f, a, r⟩ := by
  split <;> rfl

private theorem set_h (p : Prop) [Decidable p] (t c u h s n f a r v : Str) :
    (if p then WHOXInfo.set ⟨t, c, u, h, s, n, f, a, r⟩ 104 v else ⟨t, c, u, h, s, n, f, a, r⟩)
      = ⟨t, c, u, if p then v else h, s, n, f, a, r⟩ := by
  split <;> rfl

private theorem set_s (p : Prop) [Decidable p] (t c u h s n f a r v : Str) :
    (if p then WHOXInfo.set ⟨t, c, u, h, s, n, f, a, r⟩ 115 v else ⟨t, c, u, h, s, n, f, a, r⟩)
      = ⟨t, c, u, h, if p then v else s, n, f, a, r⟩ := by
  split <;> rfl

private theorem set_n (p : Prop) [Decidable p] (t c u h s n f a r v : Str) :
    (if p then WHOXInfo.set ⟨t, c, u, h, s, n, f, a, r⟩ 110 v else ⟨t, c, u, h, s, n, f, a, r⟩)
      = ⟨t, c, u, h, s, if p then v else n, f, a, r⟩ := by
  split <;> rfl

private theorem set_f (p : Prop) [Decidable p] (t c u h s n f a r v : Str) :
    (if p then WHOXInfo.set ⟨t, c, u, h, s, n, f, a, r⟩ 102 v else ⟨t, c, u, h, s, n, f, a, r⟩)
      = ⟨t, c, u, h, s, n, if p then v else f, a, r⟩ := by
  split <;> rfl

private theorem set_a (p : Prop) [Decidable p] (t c u h s n f a r v : Str) :
    (if p then WHOXInfo.set ⟨t, c, u, h, s, n, f, a, r⟩ 97 v else ⟨t, c, u, h, s, n, f, a, r⟩)
      = ⟨t, c, u, h, s, n, f, if p then v else a, r⟩ := by
  split <;> rfl

private theorem set_r (p : Prop) [Decidable p] (t c u h s n f a r v : Str) :
    (if p then WHOXInfo.set ⟨t, c, u, h, s, n, f, a, r⟩ 114 v else ⟨t, c, u, h, s, n, f, a, r⟩)
      = ⟨t, c, u, h, s, n, f, a, if p then v else r⟩ := by
  split <;> rfl

private theorem set_none (p : Prop) [Decidable p] (i : WHOXInfo) (v : Str) (k : Byte)
    (h : k = 105 ∨ k = 100 ∨ k = 108 ∨ k = 111) : (if p then i.set k v else i) = i := by
  rcases h with rfl | rfl | rfl | rfl <;> simp [WHOXInfo.set]

private theorem loop_eq (fields : Str) (i : WHOXInfo) : ∀ (fs : List Byte) (acc : WHOXInfo),
    parseWHOXLoop fields fs acc ((fs.filter (fun f => decide (f ∈ fields))).map i.get)
      = some (fs.foldl (fun a f => if f ∈ fields then a.set f (i.get f) else a) acc) := by
  intro fs
  induction fs with
  | nil => intro acc; rfl
  | cons f fs ih =>
    intro acc
    by_cases hf : f ∈ fields
    · simp [parseWHOXLoop, hf, ih]
    · simp [parseWHOXLoop, hf, ih]

/-- C10: parsing the reply generated for a field set, with the same field set, gives back every
requested field as shown and nothing else. -/
theorem C10_whox_roundtrip (fields : Str) (hf : fields ≠ []) (i : WHOXInfo) :
    parseWHOXReply (generateWHOXReply fields i) fields = some (whoxExpected fields i) := by
  unfold parseWHOXReply generateWHOXReply
  simp only [hf, if_false]
  rw [if_neg (by simp), loop_eq]
  simp only [whoxFields, List.foldl_cons, List.foldl_nil]
  rw [set_t, set_c, set_u, set_none _ _ _ 105 (by decide), set_h, set_s, set_n, set_f,
    set_none _ _ _ 100 (by decide), set_none _ _ _ 108 (by decide), set_a,
    set_none _ _ _ 111 (by decide), set_r]
  simp only [whoxExpected, ← host_eq, ← acct_eq]
  rfl

/-- C10: the reply depends only on which fields were requested, not on the order or repetition of the
letters, and its values come in the canonical order. -/
theorem C10_whox_order (f g : Str) (hf : f ≠ []) (hg : g ≠ []) (i : WHOXInfo)
    (h : ∀ k ∈ whoxOrder, k ∈ f ↔ k ∈ g) :
    generateWHOXReply f i = generateWHOXReply g i ∧
    (generateWHOXReply f i).params.length = 1 + (whoxOrder.filter (· ∈ f)).length ∧
    ∀ n k, (whoxOrder.filter (· ∈ f))[n]? = some k →
      ∃ v, (generateWHOXReply f i).params[n + 1]? = some v ∧
        (generateWHOXReply [k] i).params = [b!"*", v] := by
  have hkey : whoxFields.filter (fun k => decide (k ∈ f)) = whoxFields.filter (fun k => decide (k ∈ g)) := by
    apply List.filter_congr
    intro k hk
    have := h k hk
    simp [this]
  refine ⟨?_, ?_, ?_⟩
  · simp [generateWHOXReply, hf, hg, hkey]
  · simp [generateWHOXReply, hf, whoxOrder, whoxFields]; omega
  · intro n k hk
    refine ⟨i.get k, ?_, ?_⟩
    · simp only [generateWHOXReply, hf, if_false, List.getElem?_cons_succ, List.getElem?_map]
      have : whoxFields = whoxOrder := rfl
      rw [this, hk]
      rfl
    · have hm : k ∈ whoxOrder := (List.mem_filter.1 (List.mem_of_getElem? hk)).1
      have : whoxFields.filter (fun x => decide (x ∈ [k])) = [k] := by
        simp only [whoxOrder, List.mem_cons, List.not_mem_nil, or_false] at hm
        rcases hm with h | h | h | h | h | h | h | h | h | h | h | h | h <;> subst h <;> decide
      unfold generateWHOXReply
      rw [if_neg (by simp), this]
      rfl

/-- C10, on the wire: if no requested field but possibly the last is empty, contains a space or
starts with a colon (a host name may), then what a client splits from the line is exactly what
was put in it, so that the whole exchange through the text of the line is lossless. -/
theorem C10_whox_wire_partial (fields : Str) (hf : fields ≠ []) (i : WHOXInfo)
    (hm : ∀ p ∈ (generateWHOXReply fields i).params.dropLast, Middle p) :
    parseWHOXReply ⟨b!"354", parseParams ((msgString (generateWHOXReply fields i)).drop 3)⟩ fields
      = some (whoxExpected fields i) := by
  have hc : (generateWHOXReply fields i).command = b!"354" := by simp [generateWHOXReply, hf]
  have : (msgString (generateWHOXReply fields i)).drop 3
      = msgString.go (generateWHOXReply fields i).params := by
    unfold msgString; rw [hc]; rfl
  rw [this, parseParams_go _ hm, ← C10_whox_roundtrip fields hf i]
  congr 1
  rw [← hc]

/-- C10 (disagreement): a client that requests the token field without giving a token gets a line
with an empty parameter in the middle, from which it reads its own nick as the token. -/
theorem C10_whox_wire_violated :
    ∃ (options : Str) (i : WHOXInfo), i.token = (parseWHOXOptions options).2 ∧ i.nickname = b!"bob" ∧
      (let fields := (parseWHOXOptions options).1
       let line := msgString (generateWHOXReply fields i)
       parseParams (line.drop 3) = [b!"*", b!"bob"] ∧
       parseWHOXReply ⟨b!"354", parseParams (line.drop 3)⟩ fields = none) := by
  refine ⟨b!"%tn", { nickname := b!"bob" }, by decide, rfl, ?_⟩
  have h1 : (msgString (generateWHOXReply (parseWHOXOptions b!"%tn").1
      { nickname := b!"bob" })).drop 3 = b!" *  bob" := by decide
  have h2 : parseParams b!" *  bob" = [b!"*", b!"bob"] := by
    rw [parseParams_space, parseParams_tok _ _ (by decide) (by decide)]
    simp only [show List.dropWhile (fun x => decide (x ≠ 32)) b!"*  bob" = b!"  bob" by decide,
      show List.takeWhile (fun x => decide (x ≠ 32)) b!"*  bob" = b!"*" by decide]
    rw [parseParams_space, parseParams_space, parseParams_tok _ _ (by decide) (by decide)]
    simp only [show List.dropWhile (fun x => decide (x ≠ 32)) b!"bob" = [] by decide,
      show List.takeWhile (fun x => decide (x ≠ 32)) b!"bob" = b!"bob" by decide]
    rw [parseParams_nil]
  simp only [h1, h2]
  decide

/-- C10: the reply to a plain WHO is read back by the bouncer's own reader with every field as shown,
whatever the real name contains. -/
theorem C10_who_roundtrip (i : WHOXInfo) :
    parseWhoReply (generateWHOXReply [] i) = some { i with
      token := [], channel := [], account := [], hostname := shownHost i.hostname } := by
  simp [generateWHOXReply, parseWhoReply, cut, host_eq]

/-- C10: the reply to a plain WHO has the form RFC 2812 asks for: eight parameters, a channel or a star in place of one,
and a hop count of zero before the real name. -/
theorem C10_who_form (i : WHOXInfo) :
    (generateWHOXReply [] i).command = b!"352" ∧ (generateWHOXReply [] i).params.length = 8 ∧
    (generateWHOXReply [] i).params[1]? = some (if i.channel = [] then b!"*" else i.channel) ∧
    (generateWHOXReply [] i).params.getLast? = some (b!"0 " ++ i.realname) := by
  simp [generateWHOXReply, whoxChannel]

/-- C10: the options parser splits `flags%fields,token` at the first percent sign and the first comma
after it, and keeps the token only if the token field is requested. -/
theorem C10_whox_options (flags fields token : Str) (h1 : 37 ∉ flags) (h2 : 44 ∉ fields)
    (h3 : ∀ c ∈ fields, 97 ≤ c ∧ c ≤ 122) :
    parseWHOXOptions (flags ++ b!"%" ++ fields ++ b!"," ++ token)
      = (fields, if 116 ∈ fields then token else []) ∧
    parseWHOXOptions (flags ++ b!"%" ++ fields) = (fields, []) ∧
    parseWHOXOptions flags = ([], []) := by
  have hcut : ∀ (sep : Nat) (a b : Str), sep ∉ a → cut sep (a ++ sep :: b) = (a, some b) := by
    intro sep a b h
    induction a with
    | nil => simp [cut]
    | cons c a ih =>
      simp only [List.mem_cons, not_or] at h
      simp [cut, ih h.2, Ne.symm h.1]
  have hcut' : ∀ (sep : Nat) (a : Str), sep ∉ a → cut sep a = (a, none) := by
    intro sep a h
    induction a with
    | nil => simp [cut]
    | cons c a ih =>
      simp only [List.mem_cons, not_or] at h
      simp [cut, ih h.2, Ne.symm h.1]
  have hlow : asciiLower fields = fields := by
    unfold asciiLower
    conv => rhs; rw [← List.map_id fields]
    apply List.map_congr_left
    intro c hc
    have := h3 c hc
    simp only [id_eq, ite_eq_right_iff]
    omega
  refine ⟨?_, ?_, ?_⟩
  · unfold parseWHOXOptions
    rw [show flags ++ b!"%" ++ fields ++ b!"," ++ token = flags ++ 37 :: (fields ++ 44 :: token) by simp,
      hcut 37 _ _ h1]
    simp only [hcut 44 _ _ h2, hlow]
  · unfold parseWHOXOptions
    rw [show flags ++ b!"%" ++ fields = flags ++ 37 :: fields by simp, hcut 37 _ _ h1]
    simp only [hcut' 44 _ h2, hlow]
  · unfold parseWHOXOptions
    rw [hcut' 37 _ h1]

example : let i : WHOXInfo := ⟨b!"42", [], [], b!"::1", [], b!"bob", [], b!"*", b!"Bob B"⟩
    generateWHOXReply b!"rnhtat" i = ⟨b!"354", [b!"*", b!"42", b!"0::1", b!"bob", b!"0", b!"Bob B"]⟩ ∧
    (∀ p ∈ (generateWHOXReply b!"rnhtat" i).params.dropLast, Middle p) ∧
    (∀ k ∈ whoxOrder, k ∈ b!"rnhtat" ↔ k ∈ b!"atnhr") := by decide

example : (37 ∉ b!"flags") ∧ (44 ∉ b!"tcn") ∧ (∀ c ∈ b!"tcn", 97 ≤ c ∧ c ≤ 122) := by decide

end Verif.Props
