import Verif.Model.LogPath
import Verif.Proof.GoStr

/-! # C14: log files stay inside the log directory -/

namespace Verif.Props
open Verif.Model Verif.Spec Verif.Proof

/-- The replacements turn every non-empty name into the name of a directory entry. -/
theorem C14_escape_plain (name : Str) (h : name ≠ []) : PlainName (escapeFilename name) := by
  unfold escapeFilename
  split
  · decide
  · split
    · decide
    · rename_i h1 h2
      refine ⟨by simpa using h, ?_, ?_, ?_⟩
      · intro hm
        obtain ⟨c, _, hc⟩ := List.mem_map.1 hm
        split at hc <;> simp_all
      · intro he
        apply h1
        match name with
        | [] => simp at he
        | [c] =>
          simp only [List.map_cons, List.map_nil, List.cons.injEq, and_true] at he
          split at he <;> simp_all
        | _ :: _ :: _ => simp at he
      · intro he
        apply h2
        match name with
        | [] => simp at he
        | [c] => simp at he
        | [c, d] =>
          simp only [List.map_cons, List.map_nil, List.cons.injEq, and_true] at he
          obtain ⟨hc, hd⟩ := he
          split at hc <;> split at hd <;> simp_all
        | _ :: _ :: _ :: _ => simp at he

private theorem logFilename_plain (d : Date) : PlainName (logFilename d) := by
  have hmem : ∀ c ∈ logFilename d, c ≠ 47 := by
    intro c hc
    unfold logFilename at hc
    simp only [List.mem_append] at hc
    rcases hc with ((((hc | hc) | hc) | hc) | hc) | hc
    · have := padDec_digits _ _ c hc; omega
    · simp at hc; omega
    · have := padDec_digits _ _ c hc; omega
    · simp at hc; omega
    · have := padDec_digits _ _ c hc; omega
    · simp at hc; omega
  have hlen : 4 ≤ (logFilename d).length := by unfold logFilename; simp; omega
  refine ⟨?_, fun h => hmem 47 h rfl, ?_, ?_⟩ <;>
  · intro h; rw [h] at hlen; simp at hlen

/-- C14: for every root directory, every non-empty user, network and target name and every date, the log
file is `root/user/network/target/date.log`: resolving its path component by component leads, from the
root directory, through exactly one directory entry per name.  In particular no name can make the path
leave the root. -/
theorem C14_inside_partial (cwd : List Str) (root user network entity : Str) (d : Date)
    (hu : user ≠ []) (hn : network ≠ []) (he : entity ≠ []) :
    resolve cwd (logPath (fsRoot root user) network entity d)
      = resolve cwd root ++ [escapeFilename user, escapeFilename network, escapeFilename entity, logFilename d] ∧
    PlainName (escapeFilename user) ∧ PlainName (escapeFilename network) ∧
    PlainName (escapeFilename entity) ∧ PlainName (logFilename d) := by
  have h1 := C14_escape_plain user hu
  have h2 := C14_escape_plain network hn
  have h3 := C14_escape_plain entity he
  have h4 := logFilename_plain d
  refine ⟨?_, h1, h2, h3, h4⟩
  unfold logPath
  rw [resolve_joinPath _ _ _ (by simp)]
  · simp only [List.foldl_cons, List.foldl_nil]
    rw [enter_plain h2, enter_plain h3, enter_plain h4]
    unfold fsRoot
    rw [resolve_joinPath _ _ _ (by simp)]
    · simp only [List.foldl_cons, List.foldl_nil]
      rw [enter_plain h1]; simp
    · intro e he; simp at he; subst he; exact ⟨h1.1, h1.2.1⟩
  · intro e he
    simp at he
    rcases he with rfl | rfl | rfl
    · exact ⟨h2.1, h2.2.1⟩
    · exact ⟨h3.1, h3.2.1⟩
    · exact ⟨h4.1, h4.2.1⟩

/-- C14: whatever the names, empty ones included, the path does not leave the root directory. -/
theorem C14_never_escapes (cwd : List Str) (root user network entity : Str) (d : Date) :
    ∃ names, resolve cwd (logPath (fsRoot root user) network entity d) = resolve cwd root ++ names ∧
      ∀ n ∈ names, PlainName n := by
  have hesc : ∀ n : Str, escapeFilename n = [] ∨ PlainName (escapeFilename n) := by
    intro n
    by_cases h : n = []
    · left; subst h; rfl
    · exact Or.inr (C14_escape_plain n h)
  -- joining any mix of empty and plain names
  have key : ∀ (es : List Str), (∀ e ∈ es, e = [] ∨ PlainName e) → ∀ r,
      ∃ names, resolve cwd (joinPath (r :: es)) = resolve cwd r ++ names ∧ ∀ n ∈ names, PlainName n := by
    intro es hes
    have fold : ∀ (l : List Str), (∀ e ∈ l, e = [] ∨ PlainName e) → ∀ dir : List Str,
        ∃ names, l.foldl enter dir = dir ++ names ∧ ∀ n ∈ names, PlainName n := by
      intro l
      induction l with
      | nil => intro _ dir; exact ⟨[], by simp⟩
      | cons e l ih =>
        intro h dir
        rcases h e (by simp) with rfl | hp
        · obtain ⟨names, h1, h2⟩ := ih (fun x hx => h x (by simp [hx])) dir
          exact ⟨names, by simpa [enter] using h1, h2⟩
        · obtain ⟨names, h1, h2⟩ := ih (fun x hx => h x (by simp [hx])) (dir ++ [e])
          refine ⟨e :: names, ?_, ?_⟩
          · rw [List.foldl_cons, enter_plain hp, h1]; simp
          · intro n hn
            rcases List.mem_cons.1 hn with rfl | hn
            · exact hp
            · exact h2 n hn
    have hfree : ∀ (l : List Str), (∀ e ∈ l, e = [] ∨ PlainName e) → ∀ e ∈ l, 47 ∉ e := by
      intro l hl e he
      rcases hl e he with rfl | hp
      · simp
      · exact hp.2.1
    induction es with
    | nil =>
      intro r
      by_cases hr : r = []
      · subst hr; exact ⟨[], by simp [joinPath, resolve_nil], by simp⟩
      · exact ⟨[], by rw [joinPath, if_neg hr, resolve_cleanPath]; simp [joinStr], by simp⟩
    | cons e es ih =>
      intro r
      by_cases hr : r = []
      · subst hr
        rcases hes e (by simp) with rfl | hp
        · have := ih (fun x hx => hes x (by simp [hx])) []
          simpa [joinPath] using this
        · obtain ⟨names, h1, h2⟩ := ih (fun x hx => hes x (by simp [hx])) e
          refine ⟨e :: names, ?_, ?_⟩
          · rw [joinPath, if_pos rfl, h1, resolve_nil]
            have := resolve_join cwd [e] (by simp; exact ⟨hp.1, hp.2.1⟩)
            simp only [joinStr, List.foldl_cons, List.foldl_nil] at this
            rw [this, enter_plain hp]; simp
          · intro n hn
            rcases List.mem_cons.1 hn with rfl | hn
            · exact hp
            · exact h2 n hn
      · rw [joinPath, if_neg hr, resolve_cleanPath, joinStr_cons _ _ _ (by simp), List.append_assoc,
          List.singleton_append, resolve_append _ _ _ hr,
          splitByte_joinStr 47 _ (by simp) (hfree _ hes)]
        exact fold _ hes _
  obtain ⟨n1, h1, hp1⟩ := key [escapeFilename user] (by simpa using hesc user) root
  obtain ⟨n2, h2, hp2⟩ := key [escapeFilename network, escapeFilename entity, logFilename d]
    (by
      intro e he
      simp at he
      rcases he with rfl | rfl | rfl
      · exact hesc _
      · exact hesc _
      · exact Or.inr (logFilename_plain d)) (fsRoot root user)
  refine ⟨n1 ++ n2, ?_, ?_⟩
  · unfold logPath
    rw [h2]
    unfold fsRoot
    rw [h1, List.append_assoc]
  · intro n hn
    rcases List.mem_append.1 hn with hn | hn
    · exact hp1 n hn
    · exact hp2 n hn

/-- C14: a name without slash and backslash is used unchanged. -/
theorem C14_escape_id (name : Str) (h : PlainName name) (hb : 92 ∉ name) : escapeFilename name = name := by
  unfold escapeFilename
  rw [if_neg h.2.2.1, if_neg h.2.2.2]
  conv => rhs; rw [← List.map_id name]
  apply List.map_congr_left
  intro c hc
  rw [if_neg]
  · rfl
  · rintro (rfl | rfl)
    · exact h.2.1 hc
    · exact hb hc

/-- C14: two names share a directory exactly when they agree once the replaced characters are shown as
dashes (names `.` and `..` aside). -/
theorem C14_shared_iff (a b : Str) (ha : a ≠ b!"." ∧ a ≠ b!"..") (hb : b ≠ b!"." ∧ b ≠ b!"..") :
    escapeFilename a = escapeFilename b ↔ dashed a = dashed b := by
  unfold escapeFilename dashed
  rw [if_neg ha.1, if_neg ha.2, if_neg hb.1, if_neg hb.2]

private theorem logFilename_inj {d e : Date} (hd : d.year < 10000 ∧ d.month < 100 ∧ d.day < 100)
    (he : e.year < 10000 ∧ e.month < 100 ∧ e.day < 100) (h : logFilename d = logFilename e) : d = e := by
  unfold logFilename at h
  simp only [List.append_assoc] at h
  obtain ⟨h1, h⟩ := List.append_inj h (by
    rw [padDec_length 4 _ (by omega) (by omega), padDec_length 4 _ (by omega) (by omega)])
  obtain ⟨_, h⟩ := List.append_inj h rfl
  obtain ⟨h2, h⟩ := List.append_inj h (by
    rw [padDec_length 2 _ (by omega) (by omega), padDec_length 2 _ (by omega) (by omega)])
  obtain ⟨_, h⟩ := List.append_inj h rfl
  obtain ⟨h3, _⟩ := List.append_inj h (by
    rw [padDec_length 2 _ (by omega) (by omega), padDec_length 2 _ (by omega) (by omega)])
  have := congrArg decVal h1
  have := congrArg decVal h2
  have := congrArg decVal h3
  simp only [decVal_padDec] at *
  cases d; cases e; simp_all

/-- C14: names without slash and backslash (other than `.` and `..`) and calendar dates identify the log
file: two different (user, network, target, date) never share a file. -/
theorem C14_distinct (cwd : List Str) (root u u' n n' e e' : Str) (d d' : Date)
    (hu : PlainName u ∧ 92 ∉ u) (hu' : PlainName u' ∧ 92 ∉ u')
    (hn : PlainName n ∧ 92 ∉ n) (hn' : PlainName n' ∧ 92 ∉ n')
    (he : PlainName e ∧ 92 ∉ e) (he' : PlainName e' ∧ 92 ∉ e')
    (hd : d.year < 10000 ∧ d.month < 100 ∧ d.day < 100)
    (hd' : d'.year < 10000 ∧ d'.month < 100 ∧ d'.day < 100)
    (h : resolve cwd (logPath (fsRoot root u) n e d) = resolve cwd (logPath (fsRoot root u') n' e' d')) :
    u = u' ∧ n = n' ∧ e = e' ∧ d = d' := by
  rw [(C14_inside_partial cwd root u n e d hu.1.1 hn.1.1 he.1.1).1,
    (C14_inside_partial cwd root u' n' e' d' hu'.1.1 hn'.1.1 he'.1.1).1] at h
  have h := List.append_cancel_left h
  simp only [List.cons.injEq, and_true] at h
  rw [C14_escape_id u hu.1 hu.2, C14_escape_id u' hu'.1 hu'.2, C14_escape_id n hn.1 hn.2,
    C14_escape_id n' hn'.1 hn'.2, C14_escape_id e he.1 he.2, C14_escape_id e' he'.1 he'.2] at h
  exact ⟨h.1, h.2.1, h.2.2.1, logFilename_inj hd hd' h.2.2.2⟩

/-- C14: `RenameNetwork` moves exactly the directory that holds all the log files of the network. -/
theorem C14_rename_dir (cwd : List Str) (root network entity : Str) (d : Date)
    (hn : network ≠ []) (he : entity ≠ []) :
    resolve cwd (logPath root network entity d)
      = resolve cwd (networkDir root network) ++ [escapeFilename entity, logFilename d] := by
  have h2 := C14_escape_plain network hn
  have h3 := C14_escape_plain entity he
  have h4 := logFilename_plain d
  unfold logPath networkDir
  rw [resolve_joinPath _ _ _ (by simp), resolve_joinPath _ _ _ (by simp)]
  · simp only [List.foldl_cons, List.foldl_nil]
    rw [enter_plain h2, enter_plain h3, enter_plain h4]; simp
  · intro e he; simp at he; subst he; exact ⟨h2.1, h2.2.1⟩
  · intro e he
    simp at he
    rcases he with rfl | rfl | rfl
    · exact ⟨h2.1, h2.2.1⟩
    · exact ⟨h3.1, h3.2.1⟩
    · exact ⟨h4.1, h4.2.1⟩

/-- C14 (disagreement): an empty target name collapses a level, so the log file lies directly in the
network's directory. -/
theorem C14_empty_name_violated :
    resolve [] (logPath (fsRoot b!"/logs" b!"jane") b!"libera" [] ⟨2024, 2, 1⟩)
      = [b!"logs", b!"jane", b!"libera", b!"2024-02-01.log"] := by decide

/-- C14 (disagreement): two different network names (a network without a name is named after its address,
which may contain slashes) share the directory. -/
theorem C14_collision_violated :
    logPath (fsRoot b!"/logs" b!"jane") b!"unix:///run/ircd" b!"#x" ⟨2024, 2, 1⟩
      = logPath (fsRoot b!"/logs" b!"jane") b!"unix:--/run-ircd" b!"#x" ⟨2024, 2, 1⟩ := by decide

example : resolve [] (logPath (fsRoot b!"/var/../logs" b!"..") b!"../../etc" b!"." ⟨2024, 2, 1⟩)
    = [b!"logs", b!"--", b!"..-..-etc", b!"-", b!"2024-02-01.log"] := by decide

example : resolve [b!"home"] (logPath (fsRoot b!"logs" b!"jane") b!"libera" b!"#soju" ⟨2024, 2, 1⟩)
    = [b!"home", b!"logs", b!"jane", b!"libera", b!"#soju", b!"2024-02-01.log"] := by decide

end Verif.Props
