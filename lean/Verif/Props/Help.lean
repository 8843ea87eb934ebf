import Verif.Model.Help
import Verif.Model.Words
import Verif.Props.Service

/-! # C102: the help of the service lists the commands one can use -/

namespace Verif.Props
open Verif.Model Verif.Proof

/-! ## Specification -/

/-- A list of command lines, as it is printed. -/
def ListsCommands (text : Str) (lines : List (List Str)) : Prop :=
  text = b!"available commands: " ++ joinStr b!", " (lines.map (joinStr b!" "))

/-- The line is a command by its full name: one of the table, or of a group of the table. -/
def FullName (line : List Str) : Prop :=
  ∃ e ∈ serviceCommands, line = [e.1] ∨ ∃ e2 ∈ e.2.children, line = [e.1, e2.1]

/-- The line, given to the service in this context, runs a command (and does not leave words that are not of the name). -/
def UsableLine (order : List (Str × SvcCmd) → List (Str × SvcCmd)) (ctx : SvcCtx) (line : List Str) : Prop :=
  ∃ h, handleServiceCommand order ctx line = .run h [] ∧ splitWords (joinStr b!" " line) = some line

/-! ## Lemmas -/

private def fullNames : List (List Str) :=
  serviceCommands.flatMap (fun e => [e.1] :: e.2.children.map (fun e2 => [e.1, e2.1]))

private theorem fullName_iff (line : List Str) : FullName line ↔ line ∈ fullNames := by
  unfold FullName fullNames
  simp only [List.mem_flatMap, List.mem_cons, List.mem_map]
  constructor
  · rintro ⟨e, he, h | ⟨e2, h2, h⟩⟩
    · exact ⟨e, he, .inl h⟩
    · exact ⟨e, he, .inr ⟨e2, h2, h.symm⟩⟩
  · rintro ⟨e, he, h | ⟨e2, h2, h⟩⟩
    · exact ⟨e, he, .inl h⟩
    · exact ⟨e, he, .inr ⟨e2, h2, h.symm⟩⟩

private def runs (ctx : SvcCtx) (line : List Str) : Bool :=
  match handleServiceCommand id ctx line with
  | .run _ [] => true
  | _ => false

private theorem runs_iff (ctx : SvcCtx) (line : List Str) :
    runs ctx line = true ↔ ∃ h, handleServiceCommand id ctx line = .run h [] := by
  unfold runs
  split
  · next h => exact ⟨fun _ => ⟨_, h⟩, fun _ => rfl⟩
  · next h => exact ⟨fun h' => (by cases h'), fun ⟨x, hx⟩ => absurd hx (h x)⟩

private theorem id_any : AnyOrder id := fun l => List.Perm.refl l

/-- The context only matters through its rights. -/
private theorem runs_ctx (u : Option Str) (a : Bool) (line : List Str) :
    runs ⟨u, a⟩ line = runs ⟨if u.isNone then none else some [], a⟩ line := by
  cases u <;> rfl

private theorem table_plain : ∀ a g : Bool, (fullNames.all (fun l => splitWords (joinStr b!" " l) = some l) = true) ∧
    (helpLines a g 2 serviceCommands []).all (fun l => decide (l ∈ fullNames)) = true ∧
    (helpLines a g 2 serviceCommands []).Nodup ∧
    fullNames.all (fun l => decide (l ∈ helpLines a g 2 serviceCommands []) ==
      (runs ⟨if g then none else some [], a⟩ l && !(g && l.head? == some b!"server"))) = true := by
  decide +kernel

/-- What `helpLines` prints of one of the table's groups. -/
private theorem table_group : ∀ a g : Bool, serviceCommands.all (fun e =>
    decide (helpLines a g 2 e.2.children [] = ((svcSorted e.2.children).filter (fun e2 =>
      !(e2.2.admin && !a) && !(!e2.2.global && g))).map (fun e2 => [e2.1]))) = true := by
  decide +kernel

private theorem helpLines_pre (a g : Bool) : ∀ (d : Nat) (cmds : List (Str × SvcCmd)) (pre : List Str),
    helpLines a g d cmds pre = (helpLines a g d cmds []).map (pre ++ ·) := by
  intro d
  induction d with
  | zero => intro cmds pre; rfl
  | succ d ih =>
    intro cmds pre
    unfold helpLines
    rw [List.map_flatMap]
    congr 1
    funext e
    split
    · rfl
    · split
      · rfl
      · split
        · rfl
        · rw [ih _ (pre ++ [e.1]), ih _ ([] ++ [e.1]), List.map_map]
          congr 1
          funext l
          simp

private theorem insert_perm (e : Str × SvcCmd) (l : List (Str × SvcCmd)) : (svcInsert e l).Perm (e :: l) := by
  induction l with
  | nil => exact List.Perm.refl _
  | cons x l ih =>
    unfold svcInsert
    split
    · exact (ih.cons x).trans (List.Perm.swap ..)
    · exact List.Perm.refl _

private theorem sorted_perm (l : List (Str × SvcCmd)) : (svcSorted l).Perm l := by
  induction l with
  | nil => exact List.Perm.refl _
  | cons e l ih => exact (insert_perm e _).trans (ih.cons e)

/-- What can be typed for the name of a group, and its commands. -/
private theorem group_typed : serviceCommands.all (fun e =>
    ((List.range (e.1.length + 1)).map e.1.take).all (fun w => decide (w = []) ||
      e.2.children.all (fun e2 => decide (splitWords (joinStr b!" " [w, e2.1]) = some [w, e2.1])))) = true := by
  decide +kernel

/-- The commands of a group have no children, a handler, and different names. -/
private theorem group_leaves : serviceCommands.all (fun e => decide ((e.2.children.map (·.1)).Nodup) &&
    e.2.children.all (fun e2 => decide (e2.2.children.length = 0) && e2.2.handle.isSome)) = true := by
  decide +kernel

private theorem designates_prefix {cmds : List (Str × SvcCmd)} {w : Str} {c : SvcCmd} (h : Designates cmds w c) :
    ∃ name, (name, c) ∈ cmds ∧ w <+: name := by
  rcases h with h | ⟨_, name, h, hp, _⟩
  · exact ⟨w, h, List.prefix_refl w⟩
  · exact ⟨name, h, hp⟩

private theorem not_empty {c : SvcCmd} : ¬ Designates serviceCommands [] c := by
  rintro (h | ⟨_, name, _, _, hu⟩)
  · have : serviceCommands.all (fun e => decide (e.1 ≠ [])) = true := by decide
    have := List.all_eq_true.1 this _ h
    simp at this
  · have h1 := hu (b!"help", svcLeaf .help false true) (by simp [serviceCommands]) (List.nil_prefix)
    have : ∃ c, (b!"sasl", c) ∈ serviceCommands := ⟨_, by unfold serviceCommands; iterate 3 apply List.mem_cons_of_mem
                                                          exact List.mem_cons_self⟩
    obtain ⟨c', hc'⟩ := this
    have h2 := hu _ hc' (List.nil_prefix)
    rw [← h1] at h2
    exact absurd h2 (by show ¬ (b!"sasl" : Str) = b!"help"; decide)

private theorem unique_names : UniqueNames serviceCommands := by
  have leaf : ∀ h a g, UniqueNames (svcLeaf h a g).children := fun h a g => .mk (by simp [svcLeaf, SvcCmd.children])
    (by simp [svcLeaf, SvcCmd.children])
  refine .mk (by decide) ?_
  intro e he
  simp only [serviceCommands, List.mem_cons, List.not_mem_nil, or_false] at he
  rcases he with rfl | rfl | rfl | rfl | rfl | rfl | rfl
  · exact leaf _ _ _
  all_goals
    refine .mk (by decide) ?_
    intro e he
    simp only [SvcCmd.children, List.mem_cons, List.not_mem_nil, or_false] at he
    repeat' (rcases he with rfl | he)
    all_goals exact leaf _ _ _

private theorem get_group {order : List (Str × SvcCmd) → List (Str × SvcCmd)} (ho : AnyOrder order) {w : Str} {c : SvcCmd}
    (hd : Designates serviceCommands w c) : svcGet order serviceCommands [w] = .ok (c, []) :=
  (C39_lookup order ho _ unique_names _ _ _).2 (.stop hd (.inl rfl))

/-- A command of a group, by the name of the group as typed and its own. -/
private theorem get_member {order : List (Str × SvcCmd) → List (Str × SvcCmd)} (ho : AnyOrder order) {w : Str} {c : SvcCmd}
    (hd : Designates serviceCommands w c) {e2 : Str × SvcCmd} (h2 : e2 ∈ c.children) :
    svcGet order serviceCommands [w, e2.1] = .ok (e2.2, []) := by
  refine (C39_lookup order ho _ unique_names _ _ _).2 (.down hd (by simp) ?_ (.stop (.inl h2) (.inl rfl)))
  intro h
  rw [h] at h2
  cases h2

private theorem help_runs {order : List (Str × SvcCmd) → List (Str × SvcCmd)} (ho : AnyOrder order) (ctx : SvcCtx)
    (params : List Str) : handleServiceCommand order ctx (b!"help" :: params) = .run .help params := by
  have : svcGet order serviceCommands (b!"help" :: params) = .ok (svcLeaf .help false true, params) :=
    (C39_lookup order ho _ unique_names _ _ _).2 (.stop (.inl (by simp [serviceCommands])) (.inr rfl))
  unfold handleServiceCommand
  rw [this]
  rfl

/-! ## C102 -/

/-- `help` prints a list of commands, each once, by their full names.  Every line of it can be given to the service as it
is printed, and runs a command; and every command that can be used is in it, except, where there is no user (on the
administration socket), those of the group `server`. -/
theorem C102_list_partial (order : List (Str × SvcCmd) → List (Str × SvcCmd)) (ho : AnyOrder order) (ctx : SvcCtx) :
    ∃ text lines, svcHelpOutput order ctx [b!"help"] = some (.ok text) ∧ ListsCommands text lines ∧ lines.Nodup ∧
      (∀ line ∈ lines, FullName line ∧ UsableLine order ctx line) ∧
      ∀ line, FullName line → UsableLine order ctx line → ctx.user ≠ none ∨ line.head? ≠ some b!"server" → line ∈ lines := by
  obtain ⟨t1, t2, t3, t4⟩ := table_plain ctx.admin ctx.user.isNone
  have hrun : ∀ line, (∃ h, handleServiceCommand order ctx line = .run h []) ↔
      runs ⟨if ctx.user.isNone then none else some [], ctx.admin⟩ line = true := by
    intro line
    rw [← runs_ctx, runs_iff, C39_order order id ho id_any]
  refine ⟨_, helpLines ctx.admin ctx.user.isNone 2 serviceCommands [], ?_, rfl, t3, ?_, ?_⟩
  · unfold svcHelpOutput
    rw [help_runs ho]
    rfl
  · intro line hl
    have hf : line ∈ fullNames := by simpa using List.all_eq_true.1 t2 line hl
    have h4 := List.all_eq_true.1 t4 line hf
    rw [decide_eq_true hl] at h4
    simp only [beq_iff_eq] at h4
    have h5 := (Bool.and_eq_true_iff.1 h4.symm).1
    obtain ⟨h, hh⟩ := (hrun line).2 h5
    exact ⟨(fullName_iff _).2 hf, h, hh, by simpa using List.all_eq_true.1 t1 line hf⟩
  · intro line hf ⟨h, hh, _⟩ hs
    have h4 := List.all_eq_true.1 t4 line ((fullName_iff _).1 hf)
    rw [(hrun line).1 ⟨h, hh⟩, Bool.true_and] at h4
    simp only [beq_iff_eq] at h4
    have : (!(ctx.user.isNone && line.head? == some b!"server")) = true := by
      rcases hs with hs | hs
      · cases hu : ctx.user with
        | none => exact absurd hu hs
        | some u => rfl
      · rw [beq_false_of_ne hs]
        simp
    rw [this] at h4
    simpa using h4

/-- Help about a group — `help` and the name of the group, possibly abbreviated — lists exactly the commands of the group
that can be used, each once, as lines that can be given to the service; so does the name of the group alone, when it is
not refused. -/
theorem C102_group (order : List (Str × SvcCmd) → List (Str × SvcCmd)) (ho : AnyOrder order) (ctx : SvcCtx) (w : Str)
    (c : SvcCmd) (hd : Designates serviceCommands w c) (hc : c.children ≠ []) :
    ∃ text lines, svcHelpOutput order ctx [b!"help", w] = some (.ok text) ∧ ListsCommands text lines ∧ lines.Nodup ∧
      (∀ line, line ∈ lines ↔ (∃ e2 ∈ c.children, line = [w, e2.1]) ∧ UsableLine order ctx line) ∧
      (handleServiceCommand order ctx [w] = .listCommands → svcHelpOutput order ctx [w] = some (.ok text)) := by
  obtain ⟨name, hm, hp⟩ := designates_prefix hd
  have hg := List.all_eq_true.1 (table_group ctx.admin ctx.user.isNone) _ hm
  have hlv := List.all_eq_true.1 group_leaves _ hm
  have hty := List.all_eq_true.1 group_typed _ hm
  simp only [decide_eq_true_eq] at hg
  rw [Bool.and_eq_true_iff] at hlv
  have hlen : c.children.length > 0 := List.length_pos_iff.2 hc
  have hw : w ≠ [] := fun h => not_empty (h ▸ hd)
  have hlines : helpLines ctx.admin ctx.user.isNone 2 c.children [w] = ((svcSorted c.children).filter (fun e2 =>
      !(e2.2.admin && !ctx.admin) && !(!e2.2.global && ctx.user.isNone))).map (fun e2 => [w, e2.1]) := by
    rw [helpLines_pre, hg, List.map_map]
    rfl
  refine ⟨_, helpLines ctx.admin ctx.user.isNone 2 c.children [w], ?_, rfl, ?_, ?_, ?_⟩
  · unfold svcHelpOutput
    rw [help_runs ho]
    simp only [handleServiceHelp, get_group ho hd]
    simp [hlen, helpList]
  · rw [hlines]
    have nd : ((svcSorted c.children).map (·.1)).Nodup :=
      ((sorted_perm c.children).map _).nodup_iff.2 (by simpa using hlv.1)
    have nd2 : (((svcSorted c.children).filter (fun e2 =>
      !(e2.2.admin && !ctx.admin) && !(!e2.2.global && ctx.user.isNone))).map (·.1)).Nodup :=
      nd.sublist (List.filter_sublist.map _)
    have : ∀ l : List (Str × SvcCmd), (l.map (·.1)).Nodup → (l.map (fun e2 => [w, e2.1])).Nodup := by
      intro l
      induction l with
      | nil => intro _; exact List.nodup_nil
      | cons x l ih =>
        simp only [List.map_cons, List.nodup_cons]
        rintro ⟨h1, h2⟩
        refine ⟨fun h => h1 ?_, ih h2⟩
        obtain ⟨y, hy, he⟩ := List.mem_map.1 h
        simp only [List.cons.injEq, and_true, true_and] at he
        exact List.mem_map.2 ⟨y, hy, he⟩
    exact this _ nd2
  · have hsplit : ∀ e2 ∈ c.children, splitWords (joinStr b!" " [w, e2.1]) = some [w, e2.1] := by
      intro e2 h2
      have hwm : w ∈ (List.range (name.length + 1)).map name.take :=
        List.mem_map.2 ⟨w.length, List.mem_range.2 (Nat.lt_succ_of_le hp.length_le), (List.prefix_iff_eq_take.1 hp).symm⟩
      have h := List.all_eq_true.1 hty w hwm
      simp only [hw, decide_false, Bool.false_or] at h
      simpa using List.all_eq_true.1 h e2 h2
    have hrun : ∀ e2 ∈ c.children, (UsableLine order ctx [w, e2.1] ↔
        (!(e2.2.admin && !ctx.admin) && !(!e2.2.global && ctx.user.isNone)) = true) := by
      intro e2 h2
      have hl := List.all_eq_true.1 hlv.2 e2 h2
      rw [Bool.and_eq_true_iff] at hl
      obtain ⟨h, hh⟩ := Option.isSome_iff_exists.1 hl.2
      unfold UsableLine handleServiceCommand
      rw [get_member ho hd h2]
      dsimp only
      rw [hh]
      cases (e2.2.admin && !ctx.admin) <;> cases (!e2.2.global && ctx.user.isNone) <;> simp [hsplit e2 h2]
    intro line
    rw [hlines, List.mem_map]
    constructor
    · rintro ⟨e2, hf, rfl⟩
      obtain ⟨hf1, hf2⟩ := List.mem_filter.1 hf
      have h2 := (sorted_perm c.children).mem_iff.1 hf1
      exact ⟨⟨e2, h2, rfl⟩, (hrun e2 h2).2 hf2⟩
    · rintro ⟨⟨e2, h2, rfl⟩, hu⟩
      exact ⟨e2, List.mem_filter.2 ⟨(sorted_perm c.children).mem_iff.2 h2, (hrun e2 h2).1 hu⟩, rfl⟩
  · intro hlc
    unfold svcHelpOutput
    rw [hlc]
    simp only [get_group ho hd]
    rfl

/-- Help about a command — `help` and the name of the command, possibly abbreviated, possibly followed by other words —
shows the name as it was typed, the usage and the description of the command these words run. -/
theorem C102_command (order : List (Str × SvcCmd) → List (Str × SvcCmd)) (ho : AnyOrder order) (ctx : SvcCtx)
    (name rest : List Str) (h : SvcHandler)
    (hr : handleServiceCommand order ⟨some [], true⟩ (name ++ rest) = .run h rest) :
    svcHelpOutput order ctx (b!"help" :: (name ++ rest)) =
      some (.ok (joinStr b!" " name ++ (if (svcTexts h).1 = [] then [] else b!" " ++ (svcTexts h).1) ++ b!": " ++
        (svcTexts h).2)) := by
  unfold handleServiceCommand at hr
  cases hg : svcGet order serviceCommands (name ++ rest) with
  | error e => rw [hg] at hr; cases hr
  | ok r =>
    obtain ⟨c, ps⟩ := r
    rw [hg] at hr
    dsimp only at hr
    have hne : name ++ rest ≠ [] := by
      intro h0
      rw [h0] at hg
      cases hg
    have hleaf : ∀ ws c ps, DesignatesPath serviceCommands ws c ps → c.handle ≠ none → c.children.length = 0 := by
      have htop : serviceCommands.all (fun e => e.2.handle.isNone || decide (e.2.children.length = 0)) = true := by
        decide +kernel
      intro ws c ps hp hh
      cases hp with
      | stop hd _ =>
        obtain ⟨n, hm, _⟩ := designates_prefix hd
        have := List.all_eq_true.1 htop _ hm
        simp only [Bool.or_eq_true, Option.isNone_iff_eq_none, decide_eq_true_eq] at this
        exact this.resolve_left hh
      | down hd _ _ h2 =>
        obtain ⟨n, hm, _⟩ := designates_prefix hd
        have hlv := (Bool.and_eq_true_iff.1 (List.all_eq_true.1 group_leaves _ hm)).2
        cases h2 with
        | stop hd2 _ =>
          obtain ⟨n2, hm2, _⟩ := designates_prefix hd2
          have := List.all_eq_true.1 hlv _ hm2
          simp only [Bool.and_eq_true, decide_eq_true_eq] at this
          exact this.1
        | down hd2 _ hch _ =>
          obtain ⟨n2, hm2, _⟩ := designates_prefix hd2
          have := List.all_eq_true.1 hlv _ hm2
          simp only [Bool.and_eq_true, decide_eq_true_eq] at this
          exact absurd (List.length_eq_zero_iff.1 this.1) hch
    have hch : c.handle = some h ∧ ps = rest := by
      split at hr
      · cases hr
      · split at hr
        · cases hr
        · split at hr
          · next h' hh => cases hr; exact ⟨hh, rfl⟩
          · split at hr <;> cases hr
    obtain ⟨hh, rfl⟩ := hch
    have hl := hleaf _ c ps ((C39_lookup order ho _ unique_names _ _ _).1 hg) (by rw [hh]; simp)
    unfold svcHelpOutput
    rw [help_runs ho]
    simp only [handleServiceHelp, hg]
    rw [if_pos (List.length_pos_iff.2 hne), if_neg (by omega)]
    have ht : (name ++ ps).take ((name ++ ps).length - ps.length) = name := by simp
    rw [ht]
    unfold helpText
    rw [hh]
    by_cases h0 : (svcTexts h).1 = [] <;> simp [h0]

/-- Help about words that name no command prints nothing: it is an error. -/
theorem C102_unknown (order : List (Str × SvcCmd) → List (Str × SvcCmd)) (ho : AnyOrder order) (ctx : SvcCtx)
    (words : List Str) (hw : words ≠ []) (hn : ¬ ∃ c rest, DesignatesPath serviceCommands words c rest) :
    ∃ e, svcHelpOutput order ctx (b!"help" :: words) = some (.error e) := by
  cases hg : svcGet order serviceCommands words with
  | ok r => exact absurd ⟨r.1, r.2, (C39_lookup order ho _ unique_names _ _ _).1 hg⟩ hn
  | error e =>
    refine ⟨e, ?_⟩
    unfold svcHelpOutput
    rw [help_runs ho]
    simp only [handleServiceHelp, hg]
    rw [if_pos (List.length_pos_iff.2 hw)]

/-- The list is not complete on the administration socket: `server status` can be used there and is not in it. -/
theorem C102_server_violated : ∃ (ctx : SvcCtx) (text : Str) (lines : List (List Str)),
    svcHelpOutput id ctx [b!"help"] = some (.ok text) ∧ ListsCommands text lines ∧
    FullName [b!"server", b!"status"] ∧ UsableLine id ctx [b!"server", b!"status"] ∧
    [b!"server", b!"status"] ∉ lines ∧
    text = b!"available commands: help, user create, user delete, user run, user status, user update" := by
  refine ⟨⟨none, true⟩, _, helpLines true true 2 serviceCommands [], rfl, rfl, ?_, ?_, by decide +kernel, by decide +kernel⟩
  · rw [fullName_iff]; decide +kernel
  · exact ⟨.serverStatus, rfl, by decide +kernel⟩

/-! ## The hypotheses are met -/

example : ∃ c, Designates serviceCommands b!"net" c ∧ c.children ≠ [] := by
  refine ⟨_, .inr ⟨by decide, b!"network", by unfold serviceCommands; exact List.mem_cons_of_mem _ List.mem_cons_self,
    by decide, by decide⟩, by simp [SvcCmd.children]⟩

example : svcHelpOutput id ⟨some b!"ann", false⟩ [b!"help", b!"net"] =
    some (.ok b!"available commands: net create, net delete, net quote, net status, net update") := by rfl

example : svcHelpOutput id ⟨some b!"ann", false⟩ [b!"us"] =
    some (.ok b!"available commands: us delete, us update") := by rfl

example : handleServiceCommand id ⟨some [], true⟩ ([b!"sasl", b!"re"] ++ [b!"x"]) = .run .saslReset [b!"x"] ∧
    svcHelpOutput id ⟨some b!"ann", false⟩ [b!"help", b!"sasl", b!"re", b!"x"] =
      some (.ok b!"sasl re [-network name]: disable SASL authentication and remove stored credentials") := ⟨rfl, rfl⟩

example : svcHelpOutput id ⟨some b!"ann", false⟩ [b!"help", b!"s"] = some (.error .ambiguous) := by rfl

end Verif.Props
