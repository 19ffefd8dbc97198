import Verif.Props.PlatformRun

/-!
# C76: failures of the generator, the tables in the repository
-/

namespace Verif.Props

open Verif.PlatGen Verif.Spec Verif.Adv

theorem mapList_err {α β : Type} {f : α → Outcome β} {l : List α} (h : Outcome.mapList f l = .err) : ∃ x ∈ l, f x = .err := by
  induction l with
  | nil => cases h
  | cons x l ih =>
    rw [Outcome.mapList] at h
    cases hx : f x with
    | err => exact ⟨x, List.mem_cons_self, hx⟩
    | panic => rw [hx] at h; cases h
    | ok y =>
      rw [hx] at h
      simp only at h
      cases hl : Outcome.mapList f l with
      | ok ys => rw [hl] at h; cases h
      | panic => rw [hl] at h; cases h
      | err =>
        obtain ⟨z, hz, hze⟩ := ih hl
        exact ⟨z, List.mem_cons_of_mem _ hz, hze⟩

theorem bindErr {α β : Type} {x : Outcome α} {f : α → Outcome β} (h : x >>= f = .err) :
    x = .err ∨ ∃ a, x = .ok a ∧ f a = .err := by
  cases x with
  | ok a => exact Or.inr ⟨a, rfl, h⟩
  | err => exact Or.inl rfl
  | panic => cases h

theorem enumName_no_err (k : Str) : enumName k ≠ .err := by
  unfold enumName
  repeat' split
  all_goals nofun

theorem parseLine_no_err (l : Str) : parseLine l ≠ .err := by
  unfold parseLine
  intro h
  split at h
  · cases h
  · cases h
  · dsimp only at h
    split at h
    · cases h
    · split at h
      · cases h
      · split at h
        · cases h
        · split at h
          · cases h
          · cases h

theorem targetsInfo_no_err (W : GenWorld) : targetsInfo W ≠ .err := by
  intro h
  obtain ⟨t, _, ht⟩ := mapList_err h
  unfold targetInfo at ht
  split at ht
  · unfold parseInfo at ht
    rcases bindErr ht with h1 | ⟨a, _, h1⟩
    · obtain ⟨l, _, hl⟩ := mapList_err h1
      exact parseLine_no_err l hl
    · cases h1
  · cases ht

theorem enumOutput_no_err (W : GenWorld) (infos : List (List (Str × Str))) (k : Str) : enumOutput W infos k ≠ .err := by
  intro h
  unfold enumOutput at h
  rcases bindErr h with h | ⟨_, _, h⟩
  · unfold enumFile at h
    rcases bindErr h with h | ⟨vs, _, h⟩
    · unfold distinctValues at h
      rcases bindErr h with h | ⟨_, _, h⟩
      · obtain ⟨i, _, hi⟩ := mapList_err h
        unfold valueOf at hi
        split at hi <;> cases hi
      · cases h
    rcases bindErr h with h | ⟨_, _, h⟩
    · unfold enumDefinition at h
      rcases bindErr h with h | ⟨_, _, h⟩
      · exact enumName_no_err _ h
      rcases bindErr h with h | ⟨_, _, h⟩
      · obtain ⟨v, _, hv⟩ := mapList_err h
        unfold variantLines at hv
        split at hv <;> cases hv
      · cases h
    rcases bindErr h with h | ⟨_, _, h⟩
    · unfold enumConversions at h
      rcases bindErr h with h | ⟨_, _, h⟩
      · exact enumName_no_err _ h
      · cases h
    · cases h
  · cases h

theorem targetsFile_no_err (W : GenWorld) (infos : List (List (Str × Str))) (doc : List (Str × DocInfo)) :
    targetsFile W infos doc ≠ .err := by
  intro h
  unfold targetsFile at h
  rcases bindErr h with h | ⟨_, _, h⟩
  · obtain ⟨x, _, hx⟩ := mapList_err h
    unfold targetBlock at hx
    split at hx
    · unfold targetStruct at hx
      rcases bindErr hx with h | ⟨_, _, h⟩
      · obtain ⟨k, _, hk⟩ := mapList_err h
        unfold fieldLine at hk
        split at hk
        · cases hk
        · rcases bindErr hk with h | ⟨_, _, h⟩
          · exact enumName_no_err _ h
          · cases h
      rcases bindErr h with h | ⟨_, _, h⟩
      · unfold tierName at h
        repeat' split at h
        all_goals cases h
      · cases h
    · cases hx
  · cases h

/-- **C76, disagreement.**  The generator ends with an error exactly if `rustc` and the documentation do not know the same
triples; it then has written nothing.  Everything else that is wrong is a panic. -/
theorem C76_disagree (W : GenWorld) :
    generate W = .err ↔ ∃ doc, parseDoc W.doc = .ok doc ∧
      ∃ t, (t ∈ W.triples ∧ ∀ tier notes, ¬ Documented W.doc t tier notes) ∨
        (t ∉ W.triples ∧ ∃ tier notes, Documented W.doc t tier notes) := by
  have hsame : ∀ doc, parseDoc W.doc = .ok doc → (agree W.triples doc = true ↔
      ∀ t, t ∈ W.triples ↔ ∃ tier notes, Documented W.doc t tier notes) := by
    intro doc hd
    rw [agree_iff]
    refine forall_congr' fun t => ?_
    rw [((C76_doc W.doc).2 doc hd t).2.1]
  have hno : ∀ doc, parseDoc W.doc = .ok doc → (agree W.triples doc = false ↔
      ∃ t, (t ∈ W.triples ∧ ∀ tier notes, ¬ Documented W.doc t tier notes) ∨
        (t ∉ W.triples ∧ ∃ tier notes, Documented W.doc t tier notes)) := by
    intro doc hd
    rw [← Bool.not_eq_true, hsame doc hd]
    push Not
    refine exists_congr fun t => ?_
    tauto
  constructor
  · intro h
    unfold generate at h
    rcases bindErr h with h | ⟨doc, hd, h⟩
    · unfold parseDoc at h
      simp only at h
      split at h <;> cases h
    · refine ⟨doc, hd, (hno doc hd).mp ?_⟩
      cases hag : agree W.triples doc with
      | false => rfl
      | true =>
        exfalso
        rw [hag, if_neg (by decide)] at h
        rcases bindErr h with h | ⟨infos, _, h⟩
        · exact targetsInfo_no_err W h
        rcases bindErr h with h | ⟨_, _, h⟩
        · obtain ⟨k, _, hk⟩ := mapList_err h
          exact enumOutput_no_err W infos k hk
        rcases bindErr h with h | ⟨_, _, h⟩
        · exact targetsFile_no_err W infos doc h
        · cases h
  · rintro ⟨doc, hd, ht⟩
    unfold generate
    rw [hd, Outcome.bind_ok, (hno doc hd).mpr ht]
    rfl

/-! ### An example -/

/-- A cell with a piece of code. -/
def codeCell (s : String) : Cell := ⟨some (.other [.code s.toList]), []⟩

/-- A cell with notes. -/
def noteCell (s : String) : Cell := ⟨some (.text s.toList), [some s.toList]⟩

/-- The header of a table. -/
def docHeader : List Cell := [noteCell "target", noteCell "std", noteCell " notes "]

/-- A world with three triples; one of them is documented twice. -/
def genWorld : GenWorld where
  triples := ["i686-pc-windows-msvc".toList, "thumbv8m.main-none-eabihf".toList, "x86_64-unknown-freebsd".toList]
  cfg := fun t =>
    if t = "i686-pc-windows-msvc".toList then
      some ["windows".toList, "target_arch=\"x86\"".toList, "target_os=\"windows\"".toList, "target_env=\"msvc\"".toList,
        "target_endian=\"little\"".toList, "target_pointer_width=\"32\"".toList]
    else if t = "thumbv8m.main-none-eabihf".toList then
      some ["target_arch=\"arm\"".toList, "target_os=\"none\"".toList, "target_env=\"\"".toList,
        "target_endian=\"little\"".toList, "target_pointer_width=\"32\"".toList]
    else
      some ["unix".toList, "target_arch=\"x86_64\"".toList, "target_os=\"freebsd\"".toList, "target_env=\"\"".toList,
        "target_endian=\"little\"".toList, "target_pointer_width=\"64\"".toList]
  doc := [.heading (some (.text "Platform Support".toList)), .heading (some (.text "Tier 1 with Host Tools".toList)),
    .table (some docHeader) [[codeCell "i686-pc-windows-msvc", noteCell "✓", noteCell "32-bit MSVC (Windows 10+)"]],
    .heading (some (.text "Tier 2".toList)), .other,
    .table (some docHeader) [[codeCell "thumbv8m.main-none-eabihf", noteCell "*", noteCell "Bare Armv8-M"],
      [codeCell "x86_64-unknown-freebsd", noteCell "✓", noteCell "64-bit FreeBSD"]],
    .heading (some (.text "Tier 3".toList)),
    .table (some docHeader) [[codeCell "i686-pc-windows-msvc", noteCell "*", noteCell "32-bit Windows XP"]]]
  comment := fun _ => none
  header := fun _ => "//\n".toList
  footer := fun _ => []
  fileHeader := "//!\n".toList

/-- The run succeeds, and the first row counts for the triple documented twice. -/
theorem genWorld_runs :
    (generate genWorld).isOk = true ∧
    (match parseDoc genWorld.doc with
      | .ok m => decide (m.lookup "i686-pc-windows-msvc".toList = some ⟨1, "32-bit MSVC (Windows 10+)".toList⟩)
      | _ => false) = true := by
  constructor <;> decide +kernel

/-- Its file of the environments. -/
example : (match generate genWorld with
    | .ok files => decide ((files.map (·.1)) = ["src/target/arch.rs".toList, "src/target/os.rs".toList,
        "src/target/env.rs".toList, "src/target/endian.rs".toList, "src/target/pointer_width.rs".toList,
        "src/platform/platforms.rs".toList]) &&
        (files.lookup "src/target/env.rs".toList).any fun t => startsWith t "//\npub enum Env {\n    /// ``\n    None,\n\n    /// `msvc`\n    Msvc,\n\n}\n"
    | _ => false) = true := by decide +kernel

/-- A triple that is not documented ends it with an error. -/
example : generate { genWorld with triples := "new-triple".toList :: genWorld.triples } = .err := by
  have h : (match generate { genWorld with triples := "new-triple".toList :: genWorld.triples } with
    | .err => true | _ => false) = true := by decide +kernel
  revert h
  cases generate { genWorld with triples := "new-triple".toList :: genWorld.triples } with
  | err => exact fun _ => rfl
  | ok _ => nofun
  | panic => nofun

/-! ### The committed tables -/

attribute [local irreducible] committedAll committedConsts committedArch committedOs committedEnv committedEndian
  committedPointerWidth

theorem committedAll_eq : committedAll = committedConsts.map (·.1) := by decide +kernel

theorem committedConsts_ok : ∀ e ∈ committedConsts, constName e.2 = e.1 := by decide +kernel

/-- The names of a table are those of the generator, and no two are the same. -/
def NamedTable (table : List (Str × Str)) : Prop :=
  (∀ e ∈ table, variantName e.2 = e.1) ∧ (table.map (·.1)).Nodup

instance (table : List (Str × Str)) : Decidable (NamedTable table) := by unfold NamedTable; infer_instance

theorem namedArch : NamedTable committedArch := by decide +kernel
theorem namedOs : NamedTable committedOs := by decide +kernel
theorem namedEnv : NamedTable committedEnv := by decide +kernel
theorem namedEndian : NamedTable committedEndian := by decide +kernel
theorem namedWidth : NamedTable committedPointerWidth := by decide +kernel

/-- **C76, the committed names.**  Every constant of the committed table has the name the generator gives its triple, `ALL`
lists exactly the constants, in the order of their definition, and every variant of the five enums has the name the
generator gives its text; no two variants of an enum have the same name, as `C76_roundtrip` wants it. -/
theorem C76_committed :
    (∀ e ∈ committedConsts, constName e.2 = e.1) ∧
    committedAll = committedConsts.map (·.1) ∧
    ∀ table ∈ [committedArch, committedOs, committedEnv, committedEndian, committedPointerWidth],
      (∀ e ∈ table, variantName e.2 = e.1) ∧ (table.map (·.1)).Nodup := by
  refine ⟨committedConsts_ok, committedAll_eq, ?_⟩
  intro table ht
  simp only [List.mem_cons, List.not_mem_nil, or_false] at ht
  rcases ht with h | h | h | h | h <;> rw [h]
  · exact namedArch
  · exact namedOs
  · exact namedEnv
  · exact namedEndian
  · exact namedWidth

example : committedConsts.length = 331 := by decide +kernel

end Verif.Props
