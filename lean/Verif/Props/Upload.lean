import Verif.Model.Upload
import Verif.Proof.GoStr
import Verif.Proof.GoMap

/-! # C43, C44: uploaded files -/

namespace Verif.Props
open Verif.Model Verif.Spec Verif.Proof

/-! ## Requested files -/

private theorem enter_plains {acc : List Str} {c : Str} (h : ∀ x ∈ acc, PlainName x) (hc : 47 ∉ c) :
    ∀ x ∈ enter acc c, PlainName x := by
  unfold enter
  split
  · exact h
  · rename_i h1
    simp only [not_or] at h1
    split
    · exact fun x hx => h x (List.dropLast_subset _ hx)
    · rename_i h2
      intro x hx
      rcases List.mem_append.1 hx with hx | hx
      · exact h x hx
      · simp only [List.mem_singleton] at hx
        subst hx
        exact ⟨h1.1, hc, h1.2, h2⟩

private theorem cleanComps_rooted {acc : List Str} {c : Str} (h : ∀ x ∈ acc, PlainName x) :
    cleanComps true acc c = enter acc c := by
  unfold cleanComps enter
  split
  · rfl
  · split
    · split
      · rename_i h3; subst h3; rfl
      · rename_i h3
        rw [if_neg]
        intro hl
        have hm := List.mem_of_getLast? hl
        exact (h _ hm).2.2.2 rfl
    · rfl

private theorem fold_rooted (cs : List Str) (hcs : ∀ c ∈ cs, 47 ∉ c) : ∀ acc : List Str,
    (∀ x ∈ acc, PlainName x) →
    cs.foldl (cleanComps true) acc = cs.foldl enter acc ∧ ∀ x ∈ cs.foldl enter acc, PlainName x := by
  induction cs with
  | nil => intro acc h; exact ⟨rfl, h⟩
  | cons c cs ih =>
    intro acc h
    have := ih (fun c hc => hcs c (by simp [hc])) (enter acc c) (enter_plains h (hcs c (by simp)))
    rw [List.foldl_cons, List.foldl_cons, cleanComps_rooted h]
    exact this

/-- An absolute path leads to a list of plain names. -/
private theorem resolve_abs_plain (cwd : List Str) (s : Str) : ∀ x ∈ resolve cwd (47 :: s), PlainName x := by
  unfold resolve
  rw [components_eq]
  exact (fold_rooted _ (splitByte_mem_free 47 _) [] (by simp)).2

private theorem cleanList_abs (cwd : List Str) (s : Str) : cleanList (47 :: s) = resolve cwd (47 :: s) := by
  unfold cleanList resolve
  rw [components_eq]
  simp only [List.head?_cons, decide_true, if_true]
  exact (fold_rooted _ (splitByte_mem_free 47 _) [] (by simp)).1

private theorem foldl_enter_plain (l : List Str) (h : ∀ x ∈ l, PlainName x) : ∀ dir : List Str,
    l.foldl enter dir = dir ++ l := by
  induction l with
  | nil => intro dir; simp
  | cons c l ih =>
    intro dir
    rw [List.foldl_cons, enter_plain (h c (by simp)), ih (fun x hx => h x (by simp [hx]))]
    simp

private theorem resolve_slash (cwd : List Str) (s : Str) : resolve cwd (47 :: 47 :: s) = resolve [] (47 :: s) := by
  unfold resolve
  rw [components_eq, components_eq]
  simp only [List.head?_cons, if_true]
  have : splitByte 47 (47 :: 47 :: s) = [] :: splitByte 47 (47 :: s) := by
    conv => lhs; unfold splitByte
    simp
  rw [this]; rfl

private theorem resolve_two (cwd : List Str) (root : Str) (l : List Str) (hl : l ≠ [])
    (h : ∀ x ∈ l, x ≠ [] ∧ 47 ∉ x) :
    resolve cwd (joinPath [root, joinStr b!"/" l]) = l.foldl enter (resolve cwd root) := by
  unfold joinPath
  split
  · rename_i hr
    subst hr
    unfold joinPath
    rw [if_neg, resolve_cleanPath]
    · exact resolve_join cwd l h
    · cases l with
      | nil => exact absurd rfl hl
      | cons x xs =>
        have hx := (h x (by simp)).1
        cases xs with
        | nil => simpa [joinStr] using hx
        | cons y ys => simp [joinStr]
  · rename_i hr
    rw [resolve_cleanPath, joinStr_cons _ _ _ (by simp), List.append_assoc, List.singleton_append,
      resolve_append _ _ _ hr]
    have : joinStr b!"/" [joinStr b!"/" l] = joinStr b!"/" l := by simp [joinStr]
    rw [this, splitByte_joinStr 47 l hl (fun x hx => (h x hx).2)]

private theorem drop_prefix {p s : Str} (h : hasPrefix p s = true) : ∃ r, s = p ++ r := by
  unfold hasPrefix at h
  rw [List.isPrefixOf_iff_prefix] at h
  obtain ⟨r, hr⟩ := h
  exact ⟨r, hr.symm⟩

private theorem fetchName_eq (rest : Str) :
    fetchName (b!"/uploads/" ++ rest)
      = if resolve [] (47 :: rest) = [] then none else some (joinStr b!"/" (resolve [] (47 :: rest))) := by
  have hp : hasPrefix b!"/uploads/" (b!"/uploads/" ++ rest) = true := isPrefixOf_append _ _
  have hj : joinPath [b!"/", rest] = 47 :: joinStr b!"/" (resolve [] (47 :: rest)) := by
    unfold joinPath
    rw [if_neg (by decide)]
    have : joinStr b!"/" [b!"/", rest] = 47 :: 47 :: rest := by simp [joinStr]
    rw [this]
    unfold cleanPath
    rw [cleanList_abs [] (47 :: rest), resolve_slash]
    simp
  unfold fetchName
  rw [if_neg (by rw [hp]; decide), trimPrefix_append, hj]
  simp only [List.drop_succ_cons, List.drop_zero]
  have h := resolve_abs_plain [] rest
  cases hl : resolve [] (47 :: rest) with
  | nil => simp [joinStr]
  | cons x xs =>
    rw [hl] at h
    have hx := (h x (by simp)).1
    rw [if_neg, if_neg (by simp)]
    cases xs with
    | nil => simpa [joinStr] using hx
    | cons y ys => simp [joinStr, hx]

/-- Whatever path a client requests, the file served is the one found by taking the rest of the path as an
absolute path inside the upload directory: it lies below the upload directory, and no name of the way
to it is special. -/
theorem C43_fetch (cwd : List Str) (root path name : Str) (h : fetchName path = some name) :
    ∃ rest, path = b!"/uploads/" ++ rest ∧
    resolve cwd (loadPath root name) = resolve cwd root ++ resolve [] (b!"/" ++ rest) ∧
    resolve [] (b!"/" ++ rest) ≠ [] ∧
    ∀ x ∈ resolve [] (b!"/" ++ rest), PlainName x := by
  have hp : hasPrefix b!"/uploads/" path = true := by
    cases hh : hasPrefix b!"/uploads/" path with
    | true => rfl
    | false => unfold fetchName at h; rw [if_pos hh] at h; cases h
  obtain ⟨rest, rfl⟩ := drop_prefix hp
  have hpl := resolve_abs_plain [] rest
  rw [fetchName_eq] at h
  split at h
  · cases h
  · rename_i hne
    simp only [Option.some.injEq] at h
    refine ⟨rest, rfl, ?_, hne, hpl⟩
    rw [← h]
    unfold loadPath
    rw [resolve_two cwd root _ hne (fun x hx => ⟨(hpl x hx).1, (hpl x hx).2.1⟩)]
    exact foldl_enter_plain _ hpl _

/-- Climbing out of the directory leads nowhere: the request is confined. -/
example : fetchName b!"/uploads/../../etc/./passwd" = some b!"etc/passwd" ∧
    resolve [b!"srv"] (loadPath b!"up" b!"etc/passwd") = [b!"srv", b!"up", b!"etc", b!"passwd"] := by
  decide +kernel

/-! ## Stored files -/

/-- The authenticator accepts the credentials of the request, for user `u`. -/
def UpAccepted (lib : UpLib) (auth : UpAuth) (authorization u : Str) : Prop :=
  (∃ check password, auth.plain = some check ∧ lib.basicAuth authorization = some (u, password) ∧
    check u password = true) ∨
  (∃ check token, auth.bearer = some check ∧ token <:+ authorization ∧ check token = some u)

/-- The library does not put slashes in file name extensions. -/
def PlainExts (lib : UpLib) : Prop := ∀ t, ∀ e ∈ lib.exts t, 47 ∉ e

/-- The digits that `hex.EncodeToString` produces. -/
def isHexByte (c : Byte) : Prop := (48 ≤ c ∧ c ≤ 57) ∨ (97 ≤ c ∧ c ≤ 102)

/-- The tokens are made of hexadecimal digits. -/
def HexTokens (tok : Nat → Nat → Str) : Prop := ∀ i n, tok i n ≠ [] ∧ ∀ c ∈ tok i n, isHexByte c

/-- There is no directory inside the directories of the users. -/
def FlatDirs (cwd : List Str) (root : Str) (fs : UpFs) : Prop :=
  ∀ d ∈ fs.dirs, ∀ u n l, d ≠ resolve cwd root ++ u :: n :: l

private theorem cut_suffix (x : Byte) (s : Str) : (cut x s).2.getD [] <:+ s := by
  induction s with
  | nil => exact List.suffix_refl _
  | cons c s ih =>
    unfold cut
    split
    · exact List.suffix_cons c s
    · exact List.IsSuffix.trans ih (List.suffix_cons c s)

/-- A type that cannot be used is never an upload that succeeds. -/
theorem upMime_error {lib : UpLib} {t : Str} {e : UpStatus} (h : upMime lib t = .error e) :
    e = .refused ∨ e = .unsupported := by
  unfold upMime at h
  split at h
  · cases h
  · split at h
    · cases h; exact .inl rfl
    · dsimp only at h
      split at h
      · cases h
      · cases h; exact .inr rfl

theorem upUser_ok {lib : UpLib} {auth : UpAuth} {authz u : Str} (h : upUser lib auth authz = .ok u) :
    UpAccepted lib auth authz u := by
  unfold upUser at h
  split at h
  · cases h
  · dsimp only at h
    split at h
    · split at h
      · cases h
      · cases h
      · rename_i f u' p hp hb
        split at h
        · rename_i hf
          cases h
          exact Or.inl ⟨f, p, hp, hb, hf⟩
        · cases h
    · split at h
      · split at h
        · cases h
        · rename_i f hb
          split at h
          · cases h
          · rename_i u' hf
            cases h
            exact Or.inr ⟨f, _, hb, cut_suffix _ _, hf⟩
      · cases h

theorem pathBase_cases (s : Str) : pathBase s = b!"/" ∨ (pathBase s ≠ [] ∧ 47 ∉ pathBase s) := by
  unfold pathBase
  split
  · right; decide
  · dsimp only
    split
    · left; rfl
    · rename_i h1 h2
      right
      generalize ht : List.dropWhile (fun c => decide (c = 47)) s.reverse = t at h2
      rw [List.reverse_reverse]
      have hne : t ≠ [] := by simpa using h2
      constructor
      · cases t with
        | nil => exact absurd rfl hne
        | cons c t =>
          have hc : decide (c = 47) = false := by
            have := List.head?_dropWhile_not (fun c => decide (c = 47)) s.reverse
            rw [ht] at this
            simpa using this
          simp only [decide_eq_false_iff_not] at hc
          rw [List.takeWhile_cons]
          simp [hc]
      · intro hm
        rw [List.mem_reverse] at hm
        have := List.all_takeWhile (p := fun c => decide (c ≠ 47)) (l := t)
        rw [List.all_eq_true] at this
        simpa using this _ hm

private theorem upBasename_cases {lib : UpLib} {cd b : Str} (h : upBasename lib cd = some b) :
    b = [] ∨ b = b!"/" ∨ (b ≠ [] ∧ 47 ∉ b) := by
  unfold upBasename at h
  split at h
  · cases h; left; rfl
  · split at h
    · cases h
    · cases h
      right; exact pathBase_cases _

private theorem primary_noslash : ∀ e ∈ primaryExts, 47 ∉ e.2 := by decide +kernel

private theorem upSuffix_noslash {lib : UpLib} (hl : PlainExts lib) (t o : Str) : 47 ∉ upSuffix lib t o := by
  unfold upSuffix
  split
  · split
    · rename_i ext he
      have := primary_noslash _ (mget_some_mem he)
      simpa using this
    · split
      · rename_i ext he
        exact hl t ext (by rw [he]; simp)
      · simp
  · simp

private theorem hex_plain {t r : Str} (h : t ≠ [] ∧ ∀ c ∈ t, isHexByte c) (hr : 47 ∉ r) : PlainName (t ++ r) := by
  obtain ⟨hne, hx⟩ := h
  cases t with
  | nil => exact absurd rfl hne
  | cons c t =>
    have hc := hx c (by simp)
    have h46 : c ≠ 46 := by unfold isHexByte at hc; omega
    refine ⟨by simp, ?_, ?_, ?_⟩
    · intro hm
      rcases List.mem_append.1 hm with hm | hm
      · have := hx _ hm; unfold isHexByte at this; omega
      · exact hr hm
    · intro e
      simp only [List.cons_append, List.cons.injEq] at e
      exact h46 e.1
    · intro e
      simp only [List.cons_append, List.cons.injEq] at e
      exact h46 e.1

private theorem mem_mkdirAll {fs : UpFs} {d x : List Str} :
    x ∈ (mkdirAll fs d).dirs ↔ x ∈ fs.dirs ∨ ∃ n, n ≤ d.length ∧ x = d.take n := by
  unfold mkdirAll
  simp only [List.mem_append, List.mem_filter, List.mem_map, List.mem_range, decide_eq_true_eq]
  constructor
  · rintro (h | ⟨⟨n, hn, rfl⟩, _⟩)
    · exact Or.inl h
    · exact Or.inr ⟨n, by omega, rfl⟩
  · rintro (h | ⟨n, hn, rfl⟩)
    · exact Or.inl h
    · by_cases hm : d.take n ∈ fs.dirs
      · exact Or.inl hm
      · exact Or.inr ⟨⟨n, by omega, rfl⟩, hm⟩

private theorem mkdirAll_flat {cwd : List Str} {root u : Str} {fs : UpFs} (h : FlatDirs cwd root fs) :
    FlatDirs cwd root (mkdirAll fs (resolve cwd root ++ [u])) := by
  intro d hd u' n l he
  rcases mem_mkdirAll.1 hd with hd | ⟨k, hk, rfl⟩
  · exact h d hd u' n l he
  · have := congrArg List.length he
    simp only [List.length_take, List.length_append, List.length_cons, List.length_nil] at this
    omega

private theorem resolve_user (cwd : List Str) (root u : Str) (hu : PlainName u) :
    resolve cwd (joinPath [root, u]) = resolve cwd root ++ [u] := by
  rw [resolve_joinPath cwd root [u] (by simp) (by
    intro e he; simp only [List.mem_singleton] at he; subst he; exact ⟨hu.1, hu.2.1⟩)]
  simp only [List.foldl_cons, List.foldl_nil]
  exact enter_plain hu

private theorem cleanPath_ne_nil (p : Str) : cleanPath p ≠ [] := by
  unfold cleanPath
  dsimp only
  generalize (if p.head? = some 47 then b!"/" else []) ++ joinStr b!"/" (cleanList p) = out
  split
  · decide
  · assumption

/-- What an opened file is: directly in the directory of the user, and new. -/
private theorem openExcl_flat {cwd : List Str} {root u : Str} {fs : UpFs} {tok : Nat → Nat → Str}
    {orig suffix : Str} {i : Nat} {p : List Str} (hu : PlainName u)
    (hflat : FlatDirs cwd root fs) (hin : resolve cwd root ++ [u] ∈ fs.dirs)
    (htok : HexTokens tok) (hsuf : 47 ∉ suffix)
    (horig : orig = [] ∨ orig = b!"/" ∨ (orig ≠ [] ∧ 47 ∉ orig))
    (h : openExcl fs cwd (joinPath [joinPath [root, u], upName tok orig suffix i]) = .created p) :
    ∃ name, PlainName name ∧ p = resolve cwd root ++ [u, name] ∧ GoMap.get fs.files p = none ∧ p ∉ fs.dirs ∧
      (orig ≠ b!"/" → name = upName tok orig suffix i) ∧ name ⊆ upName tok orig suffix i := by
  unfold openExcl at h
  dsimp only at h
  split at h
  · cases h
  · rename_i hnew
    split at h
    · rename_i hpar
      cases h
      simp only [not_or] at hnew
      have hg : GoMap.get fs.files (resolve cwd (joinPath [joinPath [root, u], upName tok orig suffix i])) = none := by
        cases hg : GoMap.get fs.files (resolve cwd (joinPath [joinPath [root, u], upName tok orig suffix i])) with
        | none => rfl
        | some _ => rw [hg] at hnew; simp at hnew
      suffices hs : ∃ name, PlainName name ∧
          resolve cwd (joinPath [joinPath [root, u], upName tok orig suffix i]) = resolve cwd root ++ [u, name] ∧
          (orig ≠ b!"/" → name = upName tok orig suffix i) ∧ name ⊆ upName tok orig suffix i by
        obtain ⟨name, h1, h2, h3⟩ := hs
        exact ⟨name, h1, h2, hg, hnew.2, h3⟩
      by_cases hsl : orig = b!"/"
      · -- the name of the uploaded file was empty or made of slashes
        have hn : upName tok orig suffix i = joinStr b!"/" [tok i (if i = 0 then 4 else 8) ++ b!"-", suffix] := by
          unfold upName
          subst hsl
          simp [joinStr]
        have hpt : PlainName (tok i (if i = 0 then 4 else 8) ++ b!"-") := hex_plain (htok _ _) (by decide)
        have hsub : tok i (if i = 0 then 4 else 8) ++ b!"-" ⊆ upName tok orig suffix i := by
          rw [hn]
          intro c hc
          simp only [joinStr]
          rw [List.append_assoc]
          exact List.mem_append.2 (Or.inl hc)
        rw [hn] at hpar hnew hsub ⊢
        generalize tok i (if i = 0 then 4 else 8) ++ b!"-" = t at hpar hnew hpt hsub ⊢
        have hres : resolve cwd (joinPath [joinPath [root, u], joinStr b!"/" [t, suffix]])
            = enter (resolve cwd root ++ [u] ++ [t]) suffix := by
          have hne : joinPath [root, u] ≠ [] := by
            unfold joinPath
            split
            · unfold joinPath
              rw [if_neg hu.1]
              exact cleanPath_ne_nil _
            · exact cleanPath_ne_nil _
          conv => lhs; unfold joinPath
          rw [if_neg hne, resolve_cleanPath, joinStr_cons _ _ _ (by simp), List.append_assoc,
            List.singleton_append, resolve_append _ _ _ hne, resolve_user cwd root u hu]
          have : joinStr b!"/" [joinStr b!"/" [t, suffix]] = joinStr b!"/" [t, suffix] := by simp [joinStr]
          rw [this, splitByte_joinStr 47 [t, suffix] (by simp) (by
            intro x hx
            simp only [List.mem_cons, List.not_mem_nil, or_false] at hx
            rcases hx with rfl | rfl
            · exact hpt.2.1
            · exact hsuf)]
          simp only [List.foldl_cons, List.foldl_nil]
          rw [enter_plain hpt]
        rw [hres] at hpar hnew ⊢
        unfold enter at hpar hnew ⊢
        split
        · exact ⟨t, hpt, by simp, (fun h => absurd hsl h), hsub⟩
        · rename_i h1
          rw [if_neg h1] at hpar hnew
          split
          · rename_i h2
            rw [if_pos h2] at hnew
            rw [List.dropLast_concat] at hnew
            exact absurd hin hnew.2
          · rename_i h2
            rw [if_neg h2, List.dropLast_concat] at hpar
            exact absurd (by simp) (hflat _ hpar u t [])
      · have hpl : PlainName (upName tok orig suffix i) := by
          unfold upName
          rw [List.append_assoc]
          refine hex_plain (htok _ _) ?_
          intro hm
          rcases List.mem_append.1 hm with hm | hm
          · split at hm
            · rename_i hne
              rcases horig with h | h | h
              · exact hne h
              · exact hsl h
              · simp only [List.cons_append, List.nil_append, List.mem_cons] at hm
                rcases hm with hm | hm
                · omega
                · exact h.2 hm
            · simp at hm
          · exact hsuf hm
        refine ⟨_, hpl, ?_, (fun _ => rfl), fun _ h => h⟩
        rw [resolve_joinPath cwd _ [upName tok orig suffix i] (by simp) (by
          intro e he; simp only [List.mem_singleton] at he; subst he; exact ⟨hpl.1, hpl.2.1⟩),
          resolve_user cwd root u hu]
        simp only [List.foldl_cons, List.foldl_nil]
        rw [enter_plain hpl]
        simp
    · cases h

private theorem pickFile_some {fs : UpFs} {cwd : List Str} {dir orig suffix : Str} {tok : Nat → Nat → Str} :
    ∀ (k i : Nat) {p : List Str}, pickFile fs cwd dir tok orig suffix k i = some p →
    ∃ j, openExcl fs cwd (joinPath [dir, upName tok orig suffix j]) = .created p := by
  intro k
  induction k with
  | zero => intro i p h; cases h
  | succ k ih =>
    intro i p h
    unfold pickFile at h
    split at h
    · rename_i q hq
      cases h
      exact ⟨i, hq⟩
    · exact ih (i + 1) h
    · cases h

/-- What a single upload may do. -/
private theorem upStore_effect {lib : UpLib} {cwd : List Str} {root : Str} {fs : UpFs} {tok : Nat → Nat → Str}
    {u mime orig : Str} {body : UpBody} (hl : PlainExts lib) (htok : HexTokens tok) (hu : PlainName u)
    (horig : orig = [] ∨ orig = b!"/" ∨ (orig ≠ [] ∧ 47 ∉ orig)) (hflat : FlatDirs cwd root fs) :
    FlatDirs cwd root (upStore lib cwd root fs tok u mime orig body).1 ∧
    (((upStore lib cwd root fs tok u mime orig body).1.files = fs.files ∧
        ∀ p, (upStore lib cwd root fs tok u mime orig body).2 ≠ .created p) ∨
     ∃ name, PlainName name ∧
      GoMap.get fs.files (resolve cwd root ++ [u, name]) = none ∧
      resolve cwd root ++ [u, name] ∉ fs.dirs ∧
      (upStore lib cwd root fs tok u mime orig body).1.files
        = GoMap.set fs.files (resolve cwd root ++ [u, name]) (body.data.take upMaxSize) ∧
      (∀ p, (upStore lib cwd root fs tok u mime orig body).2 = .created p →
        p = resolve cwd root ++ [u, name] ∧ body.complete = true ∧ body.data.length ≤ upMaxSize) ∧
      (∃ i, (orig ≠ b!"/" → name = upName tok orig (upSuffix lib mime orig) i) ∧
        name ⊆ upName tok orig (upSuffix lib mime orig) i)) := by
  have hru := resolve_user cwd root u hu
  have hfl : FlatDirs cwd root (mkdirAll fs (resolve cwd root ++ [u])) := mkdirAll_flat hflat
  have hin : resolve cwd root ++ [u] ∈ (mkdirAll fs (resolve cwd root ++ [u])).dirs :=
    mem_mkdirAll.2 (Or.inr ⟨(resolve cwd root ++ [u]).length, Nat.le_refl _, by rw [List.take_length]⟩)
  unfold upStore
  dsimp only
  rw [hru]
  split
  · exact ⟨hfl, Or.inl ⟨rfl, by intro p h; cases h⟩⟩
  · rename_i p hp
    obtain ⟨j, hj⟩ := pickFile_some _ _ hp
    obtain ⟨name, hn, rfl, hg, hd, hname⟩ := openExcl_flat hu hfl hin htok (upSuffix_noslash hl mime orig) horig hj
    have hd' : resolve cwd root ++ [u, name] ∉ fs.dirs := fun h => hd (mem_mkdirAll.2 (Or.inl h))
    split
    · rename_i hc
      refine ⟨hfl, Or.inr ⟨name, hn, hg, hd', rfl, ?_, _, hname⟩⟩
      intro p h
      cases h
      unfold upCopy at hc
      simp only [Bool.and_eq_true, decide_eq_true_eq] at hc
      exact ⟨rfl, hc.1, hc.2⟩
    · split
      · exact ⟨hfl, Or.inr ⟨name, hn, hg, hd', rfl, (by intro p h; cases h), _, hname⟩⟩
      · exact ⟨hfl, Or.inr ⟨name, hn, hg, hd', rfl, (by intro p h; cases h), _, hname⟩⟩

theorem upHandle_effect {lib : UpLib} {auth : UpAuth} {cwd : List Str} {root : Str} {fs : UpFs}
    {tok : Nat → Nat → Str} {req : UpRequest} (hl : PlainExts lib) (htok : HexTokens tok)
    (hu : ∀ u, UpAccepted lib auth req.authorization u → PlainName u) (hflat : FlatDirs cwd root fs) :
    FlatDirs cwd root (upHandle lib auth cwd root fs tok req).1 ∧
    (((upHandle lib auth cwd root fs tok req).1.files = fs.files ∧
        ∀ p, (upHandle lib auth cwd root fs tok req).2 ≠ .created p) ∨
     ∃ u name, UpAccepted lib auth req.authorization u ∧ PlainName name ∧
      req.post = true ∧ req.path = b!"/uploads" ∧ req.contentLength ≤ upMaxSize ∧
      GoMap.get fs.files (resolve cwd root ++ [u, name]) = none ∧
      resolve cwd root ++ [u, name] ∉ fs.dirs ∧
      (upHandle lib auth cwd root fs tok req).1.files
        = GoMap.set fs.files (resolve cwd root ++ [u, name]) (req.body.data.take upMaxSize) ∧
      (∀ p, (upHandle lib auth cwd root fs tok req).2 = .created p →
        p = resolve cwd root ++ [u, name] ∧ req.body.complete = true ∧ req.body.data.length ≤ upMaxSize) ∧
      upUser lib auth req.authorization = .ok u ∧
      (∃ orig mime i, upBasename lib req.contentDisposition = some orig ∧
        (orig ≠ b!"/" → name = upName tok orig (upSuffix lib mime orig) i) ∧
        name ⊆ upName tok orig (upSuffix lib mime orig) i ∧ upMime lib req.contentType = .ok mime)) := by
  unfold upHandle
  split
  · exact ⟨hflat, Or.inl ⟨rfl, by intro p h; cases h⟩⟩
  · split
    · exact ⟨hflat, Or.inl ⟨rfl, by intro p h; cases h⟩⟩
    · rename_i hpost
      split
      · exact ⟨hflat, Or.inl ⟨rfl, by intro p h; cases h⟩⟩
      · rename_i hpath
        split
        · rename_i e he
          refine ⟨hflat, Or.inl ⟨rfl, ?_⟩⟩
          intro p h
          dsimp only at h
          subst h
          unfold upUser at he
          dsimp only at he
          repeat' split at he
          all_goals first | cases he
        · rename_i u hau
          have hacc := upUser_ok hau
          split
          · rename_i hm
            refine ⟨hflat, Or.inl ⟨rfl, fun p h => ?_⟩⟩
            dsimp only at h
            rcases upMime_error hm with e | e <;> rw [e] at h <;> cases h
          · exact ⟨hflat, Or.inl ⟨rfl, by intro p h; cases h⟩⟩
          · rename_i mime orig hm hb
            split
            · exact ⟨hflat, Or.inl ⟨rfl, by intro p h; cases h⟩⟩
            · rename_i hlen
              obtain ⟨h1, h2⟩ := upStore_effect (body := req.body) (mime := mime) hl htok (hu u hacc)
                (upBasename_cases hb) hflat
              refine ⟨h1, ?_⟩
              rcases h2 with h2 | ⟨name, g1, g2, g3, g4, g5, i, g6⟩
              · exact Or.inl h2
              · refine Or.inr ⟨u, name, hacc, g1, ?_, ?_, by omega, g2, g3, g4, g5, hau, orig, mime, i, hb, g6.1, g6.2, hm⟩
                · simpa using hpost
                · exact Classical.not_not.1 hpath

/-- The requests of a history, with the random tokens drawn for each. -/
def upRun (lib : UpLib) (auth : UpAuth) (cwd : List Str) (root : Str) (fs : UpFs) :
    List (UpRequest × (Nat → Nat → Str)) → UpFs
  | [] => fs
  | r :: rs => upRun lib auth cwd root (upHandle lib auth cwd root fs r.2 r.1).1 rs

/-- Over every history of uploads by users with plain names, files are never replaced nor changed, and every
new file lies directly in the directory of a user that the authenticator accepted for a request of the
history, and holds the data of that request. -/
theorem C43_store (lib : UpLib) (auth : UpAuth) (cwd : List Str) (root : Str) (hl : PlainExts lib)
    (reqs : List (UpRequest × (Nat → Nat → Str)))
    (htok : ∀ r ∈ reqs, HexTokens r.2)
    (hu : ∀ r ∈ reqs, ∀ u, UpAccepted lib auth r.1.authorization u → PlainName u)
    (fs : UpFs) (hflat : FlatDirs cwd root fs) :
    (∀ p c, GoMap.get fs.files p = some c → GoMap.get (upRun lib auth cwd root fs reqs).files p = some c) ∧
    (∀ p c, GoMap.get (upRun lib auth cwd root fs reqs).files p = some c →
      GoMap.get fs.files p = some c ∨
      ∃ r ∈ reqs, ∃ u name, UpAccepted lib auth r.1.authorization u ∧ PlainName name ∧
        p = resolve cwd root ++ [u, name] ∧ r.1.post = true ∧ r.1.path = b!"/uploads" ∧
        c <+: r.1.body.data ∧ c.length ≤ upMaxSize) := by
  induction reqs generalizing fs with
  | nil => exact ⟨fun p c h => h, fun p c h => Or.inl h⟩
  | cons r rs ih =>
    obtain ⟨hfl, heff⟩ := upHandle_effect (auth := auth) (req := r.1) hl (htok r (by simp)) (hu r (by simp)) hflat
    obtain ⟨ih1, ih2⟩ := ih (fun x hx => htok x (by simp [hx])) (fun x hx => hu x (by simp [hx])) _ hfl
    have hstep : (∀ p c, GoMap.get fs.files p = some c →
          GoMap.get (upHandle lib auth cwd root fs r.2 r.1).1.files p = some c) ∧
        (∀ p c, GoMap.get (upHandle lib auth cwd root fs r.2 r.1).1.files p = some c →
          GoMap.get fs.files p = some c ∨ ∃ u name, UpAccepted lib auth r.1.authorization u ∧ PlainName name ∧
            p = resolve cwd root ++ [u, name] ∧ r.1.post = true ∧ r.1.path = b!"/uploads" ∧
            c <+: r.1.body.data ∧ c.length ≤ upMaxSize) := by
      rcases heff with ⟨he, _⟩ | ⟨u, name, g1, g2, g3, g4, _, g5, _, g6, _⟩
      · rw [he]; exact ⟨fun p c h => h, fun p c h => Or.inl h⟩
      · rw [g6]
        constructor
        · intro p c h
          rw [mget_mset]
          split
          · rename_i hp; subst hp; rw [g5] at h; cases h
          · exact h
        · intro p c h
          rw [mget_mset] at h
          split at h
          · rename_i hp
            subst hp
            cases h
            exact Or.inr ⟨u, name, g1, g2, rfl, g3, g4, List.take_prefix _ _, by simp; omega⟩
          · exact Or.inl h
    unfold upRun
    refine ⟨fun p c h => ih1 p c (hstep.1 p c h), ?_⟩
    intro p c h
    rcases ih2 p c h with h | ⟨x, hx, h⟩
    · rcases hstep.2 p c h with h | h
      · exact Or.inl h
      · exact Or.inr ⟨r, by simp, h⟩
    · exact Or.inr ⟨x, by simp [hx], h⟩

/-- A file that was stored is the one served for the name the uploader is given. -/
theorem C43_roundtrip (cwd : List Str) (root u name : Str) (hu : PlainName u) (hn : PlainName name) :
    ∃ f, fetchName (b!"/uploads/" ++ u ++ b!"/" ++ name) = some f ∧
      resolve cwd (loadPath root f) = resolve cwd root ++ [u, name] ∧ f = u ++ b!"/" ++ name := by
  have hr : resolve [] (47 :: (u ++ b!"/" ++ name)) = [u, name] := by
    have h2 : resolve [] (47 :: (u ++ b!"/" ++ name)) = resolve [] (u ++ b!"/" ++ name) := by
      have := resolve_slash [] (u ++ b!"/" ++ name)
      unfold resolve
      rw [components_eq, components_eq]
      have hs : splitByte 47 (47 :: (u ++ b!"/" ++ name)) = [] :: splitByte 47 (u ++ b!"/" ++ name) := by
        conv => lhs; unfold splitByte
        simp
      rw [hs]
      have hi : (if (u ++ b!"/" ++ name).head? = some 47 then ([] : List Str) else []) = [] := by split <;> rfl
      rw [hi]; rfl
    rw [h2]
    have := resolve_join [] [u, name] (by
      intro x hx
      simp only [List.mem_cons, List.not_mem_nil, or_false] at hx
      rcases hx with rfl | rfl
      · exact ⟨hu.1, hu.2.1⟩
      · exact ⟨hn.1, hn.2.1⟩)
    have hj : joinStr b!"/" [u, name] = u ++ b!"/" ++ name := by simp [joinStr]
    rw [hj] at this
    rw [this]
    simp only [List.foldl_cons, List.foldl_nil]
    rw [enter_plain hu, enter_plain hn]
    rfl
  refine ⟨joinStr b!"/" [u, name], ?_, ?_, by simp [joinStr]⟩
  · have := fetchName_eq (u ++ b!"/" ++ name)
    rw [hr] at this
    simpa using this
  · unfold loadPath
    rw [resolve_two cwd root [u, name] (by simp) (by
      intro x hx
      simp only [List.mem_cons, List.not_mem_nil, or_false] at hx
      rcases hx with rfl | rfl
      · exact ⟨hu.1, hu.2.1⟩
      · exact ⟨hn.1, hn.2.1⟩)]
    simp only [List.foldl_cons, List.foldl_nil]
    rw [enter_plain hu, enter_plain hn]
    simp

/-! ## Authentication and size -/

/-- A request changes the stored files only if it is an upload whose credentials the authenticator accepted,
and the file goes to the directory of that user. -/
theorem C44_authenticated (lib : UpLib) (auth : UpAuth) (cwd : List Str) (root : Str) (fs : UpFs)
    (tok : Nat → Nat → Str) (req : UpRequest) (hl : PlainExts lib) (htok : HexTokens tok)
    (hu : ∀ u, UpAccepted lib auth req.authorization u → PlainName u) (hflat : FlatDirs cwd root fs)
    (h : (upHandle lib auth cwd root fs tok req).1.files ≠ fs.files) :
    req.post = true ∧ req.path = b!"/uploads" ∧
    ∃ u name, UpAccepted lib auth req.authorization u ∧ PlainName name ∧
      ∀ p, p ≠ resolve cwd root ++ [u, name] →
        GoMap.get (upHandle lib auth cwd root fs tok req).1.files p = GoMap.get fs.files p := by
  rcases (upHandle_effect (auth := auth) (req := req) hl htok hu hflat).2 with
    ⟨he, _⟩ | ⟨u, name, g1, g2, g3, g4, _, _, _, g6, _⟩
  · exact absurd he h
  · refine ⟨g3, g4, u, name, g1, g2, ?_⟩
    intro p hp
    rw [g6, mget_mset, if_neg (fun e => hp e.symm)]

/-- Without accepted credentials nothing at all is stored, not even a directory. -/
theorem C44_rejected (lib : UpLib) (auth : UpAuth) (cwd : List Str) (root : Str) (fs : UpFs)
    (tok : Nat → Nat → Str) (req : UpRequest) (h : ∀ u, ¬ UpAccepted lib auth req.authorization u) :
    (upHandle lib auth cwd root fs tok req).1 = fs ∧
    ∀ p, (upHandle lib auth cwd root fs tok req).2 ≠ .created p := by
  unfold upHandle
  split
  · exact ⟨rfl, by intro p h; cases h⟩
  · split
    · exact ⟨rfl, by intro p h; cases h⟩
    · split
      · exact ⟨rfl, by intro p h; cases h⟩
      · split
        · rename_i e he
          refine ⟨rfl, ?_⟩
          intro p h
          dsimp only at h
          subst h
          unfold upUser at he
          dsimp only at he
          repeat' split at he
          all_goals first | cases he
        · rename_i u hau
          exact absurd (upUser_ok hau) (h u)

/-- A request that announces a body above the limit is refused and leaves nothing behind. -/
theorem C44_announced (lib : UpLib) (auth : UpAuth) (cwd : List Str) (root : Str) (fs : UpFs)
    (tok : Nat → Nat → Str) (req : UpRequest) (h : req.contentLength > 50 * 1024 * 1024) :
    (upHandle lib auth cwd root fs tok req).1 = fs ∧
    ∀ p, (upHandle lib auth cwd root fs tok req).2 ≠ .created p := by
  unfold upHandle
  split
  · exact ⟨rfl, by intro p h; cases h⟩
  · split
    · exact ⟨rfl, by intro p h; cases h⟩
    · split
      · exact ⟨rfl, by intro p h; cases h⟩
      · split
        · rename_i e he
          refine ⟨rfl, ?_⟩
          intro p h
          dsimp only at h
          subst h
          unfold upUser at he
          dsimp only at he
          repeat' split at he
          all_goals first | cases he
        · split
          · rename_i hm
            refine ⟨rfl, fun p h => ?_⟩
            dsimp only at h
            rcases upMime_error hm with e | e <;> rw [e] at h <;> cases h
          · exact ⟨rfl, by intro p h; cases h⟩
          · rw [if_pos (by unfold upMaxSize; omega)]
            exact ⟨rfl, by intro p h; cases h⟩

/-- A request succeeds only if its body is complete and within the limit, and then the file holds exactly the
body. -/
theorem C44_complete (lib : UpLib) (auth : UpAuth) (cwd : List Str) (root : Str) (fs : UpFs)
    (tok : Nat → Nat → Str) (req : UpRequest) (hl : PlainExts lib) (htok : HexTokens tok)
    (hu : ∀ u, UpAccepted lib auth req.authorization u → PlainName u) (hflat : FlatDirs cwd root fs)
    (p : List Str) (h : (upHandle lib auth cwd root fs tok req).2 = .created p) :
    req.body.complete = true ∧ req.body.data.length ≤ 50 * 1024 * 1024 ∧
    GoMap.get fs.files p = none ∧
    GoMap.get (upHandle lib auth cwd root fs tok req).1.files p = some req.body.data := by
  rcases (upHandle_effect (auth := auth) (req := req) hl htok hu hflat).2 with
    ⟨_, he⟩ | ⟨u, name, _, _, _, _, _, g5, _, g6, g7⟩
  · exact absurd h (he p)
  · obtain ⟨rfl, h2, h3⟩ := g7.1 p h
    refine ⟨h2, h3, g5, ?_⟩
    rw [g6, mget_mset, if_pos rfl, List.take_of_length_le h3]

/-! ## A case, and what goes wrong -/

/-- A library for the examples: `Basic u:p`-like headers and no media types. -/
def upLibEx : UpLib :=
  { basicAuth := fun s => some ((cut 58 (s.drop 6)).1, (cut 58 (s.drop 6)).2.getD []),
    parseMedia := fun s => some (s, [(b!"filename", b!"a/pic.png")]),
    exts := fun _ => [] }

/-- One user, alice, whose password is `pw`. -/
def upAuthEx : UpAuth := { plain := some (fun u p => u = b!"alice" ∧ p = b!"pw"), bearer := none }

/-- An upload by alice. -/
def upReqEx : UpRequest :=
  { originOk := true, post := true, path := b!"/uploads", authorization := b!"Basic alice:pw", contentType := [],
    contentDisposition := b!"attachment", contentLength := -1, body := { data := b!"data", complete := true } }

/-- Tokens for the examples. -/
def upTokEx : Nat → Nat → Str := fun i _ => b!"beef" ++ itoa i

private theorem itoa_hex (n : Nat) : ∀ c ∈ itoa n, isHexByte c := by
  intro c hc
  exact Or.inl (itoa_digits n c hc)

/-- The hypotheses of the theorems are met: a second upload under the same name gets another one. -/
example : PlainExts upLibEx ∧ HexTokens upTokEx ∧
    (∀ u, UpAccepted upLibEx upAuthEx upReqEx.authorization u → PlainName u) ∧
    FlatDirs [] b!"/srv" { files := [], dirs := [[], [b!"srv"]] } ∧
    (upRun upLibEx upAuthEx [] b!"/srv" { files := [], dirs := [[], [b!"srv"]] }
      [(upReqEx, upTokEx), (upReqEx, upTokEx)]).files
      = [([b!"srv", b!"alice", b!"beef0-pic.png"], b!"data"), ([b!"srv", b!"alice", b!"beef1-pic.png"], b!"data")] := by
  refine ⟨?_, ?_, ?_, ?_, ?_⟩
  · intro t e he; cases he
  · intro i n
    refine ⟨by simp [upTokEx], ?_⟩
    intro c hc
    rcases List.mem_append.1 hc with hc | hc
    · simp only [List.mem_cons, List.not_mem_nil, or_false] at hc
      rcases hc with rfl | rfl | rfl | rfl <;> simp [isHexByte]
    · exact itoa_hex i c hc
  · rintro u (⟨f, pw, h1, h2, h3⟩ | ⟨f, t, h1, _⟩)
    · cases h1
      simp only [Bool.decide_and, Bool.and_eq_true, decide_eq_true_eq] at h3
      rw [h3.1]; decide
    · cases h1
  · intro d hd u n l he
    simp only [List.mem_cons, List.not_mem_nil, or_false] at hd
    have hr : resolve [] b!"/srv" = [b!"srv"] := by decide
    rw [hr] at he
    rcases hd with rfl | rfl <;> simp at he
  · decide +kernel

/-- A wrong password, and a body announced as too large, are turned away. -/
example : (∀ u, ¬ UpAccepted upLibEx upAuthEx b!"Basic alice:no" u) ∧
    upHandle upLibEx upAuthEx [] b!"/srv" { files := [], dirs := [] } upTokEx
      { upReqEx with contentLength := 52428801 } = ({ files := [], dirs := [] }, .tooLarge) := by
  constructor
  · rintro u (⟨f, pw, h1, h2, h3⟩ | ⟨f, t, h1, _⟩)
    · cases h1
      have h4 : upLibEx.basicAuth b!"Basic alice:no" = some (b!"alice", b!"no") := by decide
      rw [h4] at h2
      cases h2
      revert h3; decide
    · cases h1
  · decide

/-- What C44 promises of requests above the limit: they leave no file behind. -/
def OversizeLeavesNothing : Prop :=
  ∀ (lib : UpLib) (auth : UpAuth) (cwd : List Str) (root : Str) (fs : UpFs) (tok : Nat → Nat → Str)
    (req : UpRequest), req.body.data.length > upMaxSize →
    (upHandle lib auth cwd root fs tok req).1.files = fs.files

private theorem oversize_pick : pickFile (mkdirAll ⟨[], []⟩ (resolve [] (joinPath [b!"/srv", b!"alice"]))) []
    (joinPath [b!"/srv", b!"alice"]) upTokEx b!"pic.png" (upSuffix upLibEx [] b!"pic.png") 100 0
    = some [b!"srv", b!"alice", b!"beef0-pic.png"] := by decide +kernel

/-- It fails for bodies whose length is not announced: the first 50 MiB stay in the directory. -/
theorem C44_oversize_violated : ¬ OversizeLeavesNothing := by
  intro h
  have h1 := h upLibEx upAuthEx [] b!"/srv" ⟨[], []⟩ upTokEx
    { upReqEx with body := { data := List.replicate (upMaxSize + 1) 0, complete := true } } (by
      show (List.replicate (upMaxSize + 1) 0).length > upMaxSize
      rw [List.length_replicate]; omega)
  have hu : upUser upLibEx upAuthEx b!"Basic alice:pw" = .ok b!"alice" := by
    unfold upUser
    rw [if_neg (by decide)]
    have hs : asciiLower (cut 32 b!"Basic alice:pw").1 = b!"basic" := by decide
    dsimp only
    rw [hs, if_pos rfl]
    rfl
  have hm : upMime upLibEx [] = .ok [] := rfl
  have hb : upBasename upLibEx b!"attachment" = some b!"pic.png" := by decide
  unfold upHandle upReqEx at h1
  simp only [Bool.true_eq_false, if_false, ne_eq, not_true_eq_false, hu, hm, hb] at h1
  rw [if_neg (by decide)] at h1
  unfold upStore at h1
  dsimp only at h1
  rw [oversize_pick] at h1
  dsimp only at h1
  have hc : (upCopy { data := List.replicate (upMaxSize + 1) 0, complete := true }).2 = false := by
    unfold upCopy
    rw [List.length_replicate]
    simp
  rw [hc] at h1
  rw [if_neg (by decide), if_pos (by rw [List.length_replicate]; omega)] at h1
  dsimp only [mkdirAll, GoMap.set] at h1
  cases h1

end Verif.Props
