import Verif.Spec.ConfigFile
import Verif.Props.AdvisoryDecode
import Verif.Props.Audit
import Verif.Props.OsvJsonSync
import Verif.Props.LinterGate

/-!
# C88: the configuration file
-/

namespace Verif.Props

open Verif.Audit Verif.Adv Verif.Toml Verif.Lock

/-! ### Readers -/

theorem bind_iff {α β : Type} {x : Outcome α} {f : α → Outcome β} {b : β} :
    (x >>= f) = .ok b ↔ ∃ a, x = .ok a ∧ f a = .ok b :=
  ⟨bindOk, by rintro ⟨a, rfl, h⟩; exact h⟩

theorem pure_iff {α : Type} {a b : α} : (pure a : Outcome α) = .ok b ↔ a = b := by
  show Outcome.ok a = .ok b ↔ _
  exact ⟨fun h => by injection h, fun h => by rw [h]⟩

theorem asFlag_iff (v : Value) (b : Bool) : asFlag v = .ok b ↔ IsFlag v b := by
  cases v <;> simp [asFlag, IsFlag]

theorem asStr_iff (v : Value) (s : Str) : asStr v = .ok s ↔ IsText v s := by
  cases v <;> simp [asStr, IsText]

theorem asArr_iff {α : Type} {f : Value → Outcome α} {R : Value → α → Prop} (h : ∀ v a, f v = .ok a ↔ R v a) (v : Value)
    (l : List α) : asArr f v = .ok l ↔ IsList R v l := by
  have hR : (fun v a => f v = .ok a) = R := by funext v a; exact propext (h v a)
  cases v <;> simp [asArr, IsList, mapList_iff, hR]

theorem asId_iff (v : Value) (i : Id) : asId v = .ok i ↔ IsId v i := by
  unfold asId IsId
  rw [bind_iff]
  exact exists_congr fun s => and_congr (asStr_iff v s) Iff.rfl

theorem ofOption_iff {α : Type} (o : Option α) (a : α) : ofOption o = .ok a ↔ o = some a := by
  cases o <;> simp [ofOption]

theorem asParsed_iff {α : Type} (f : Str → Option α) (v : Value) (a : α) :
    asParsed f v = .ok a ↔ ∃ s, v = .str s ∧ f s = some a := by
  unfold asParsed
  rw [bind_iff]
  exact exists_congr fun s => and_congr (asStr_iff v s) (ofOption_iff _ _)

theorem deny_iff (s : Str) (d : DenyOption) : DenyOption.fromStr s = some d ↔ ∃ w ∈ denyWords, w.2 = d ∧ s = w.1.toList := by
  unfold DenyOption.fromStr
  constructor
  · intro h
    split at h
    · next hs => injection h with h; exact ⟨("warnings", .warnings), .head _, h, hs⟩
    · split at h
      · next hs => injection h with h; exact ⟨("unmaintained", .unmaintained), .tail _ (.head _), h, hs⟩
      · split at h
        · next hs => injection h with h; exact ⟨("unsound", .unsound), .tail _ (.tail _ (.head _)), h, hs⟩
        · split at h
          · next hs => injection h with h; exact ⟨("yanked", .yanked), .tail _ (.tail _ (.tail _ (.head _))), h, hs⟩
          · exact absurd h (by simp)
  · rintro ⟨w, hw, rfl, rfl⟩
    have : ∀ w ∈ denyWords, DenyOption.fromStr w.1.toList = some w.2 := by decide
    exact this w hw

theorem format_iff (s : Str) (d : OutputFormat) :
    OutputFormat.fromStr s = some d ↔ ∃ w ∈ formatWords, w.2 = d ∧ s = w.1.toList := by
  unfold OutputFormat.fromStr
  constructor
  · intro h
    split at h
    · next hs => injection h with h; exact ⟨("json", .json), .head _, h, hs⟩
    · split at h
      · next hs => injection h with h; exact ⟨("sarif", .sarif), .tail _ (.head _), h, hs⟩
      · split at h
        · next hs => injection h with h; exact ⟨("terminal", .terminal), .tail _ (.tail _ (.head _)), h, hs⟩
        · exact absurd h (by simp)
  · rintro ⟨w, hw, rfl, rfl⟩
    have : ∀ w ∈ formatWords, OutputFormat.fromStr w.1.toList = some w.2 := by decide
    exact this w hw

theorem severity_iff (s : Str) (x : Severity) :
    Severity.fromStr s = some x ↔ ∃ w ∈ severityWords, w.2 = x ∧ s.map Char.toLower = w.1.toList := by
  have key : ∀ l : Str, ((if l = "none".toList then some Severity.none
      else if l = "low".toList then some .low
      else if l = "medium".toList then some .medium
      else if l = "high".toList then some .high
      else if l = "critical".toList then some .critical
      else Option.none) = some x) ↔ ∃ w ∈ severityWords, w.2 = x ∧ l = w.1.toList := by
    intro l
    constructor
    · intro h
      split at h
      · next hs => injection h with h; exact ⟨("none", .none), .head _, h, hs⟩
      · split at h
        · next hs => injection h with h; exact ⟨("low", .low), .tail _ (.head _), h, hs⟩
        · split at h
          · next hs => injection h with h; exact ⟨("medium", .medium), .tail _ (.tail _ (.head _)), h, hs⟩
          · split at h
            · next hs => injection h with h; exact ⟨("high", .high), .tail _ (.tail _ (.tail _ (.head _))), h, hs⟩
            · split at h
              · next hs =>
                injection h with h
                exact ⟨("critical", .critical), .tail _ (.tail _ (.tail _ (.tail _ (.head _)))), h, hs⟩
              · exact absurd h (by simp)
    · rintro ⟨w, hw, rfl, rfl⟩
      have : ∀ w ∈ severityWords, (if w.1.toList = "none".toList then some Severity.none
        else if w.1.toList = "low".toList then some .low
        else if w.1.toList = "medium".toList then some .medium
        else if w.1.toList = "high".toList then some .high
        else if w.1.toList = "critical".toList then some .critical
        else Option.none) = some w.2 := by decide
      exact this w hw
  exact key (s.map Char.toLower)

theorem informational_iff (s : Str) (i : Informational) :
    Informational.fromStr s = i ↔
      (∃ w ∈ informationalWords, w.2 = i ∧ s = w.1.toList) ∨ (i = .other s ∧ ∀ w ∈ informationalWords, w.1.toList ≠ s) := by
  constructor
  · rintro rfl
    unfold Informational.fromStr
    split
    · next hs => exact Or.inl ⟨("notice", .notice), .head _, rfl, hs⟩
    · next h1 =>
      split
      · next hs => exact Or.inl ⟨("unmaintained", .unmaintained), .tail _ (.head _), rfl, hs⟩
      · next h2 =>
        split
        · next hs => exact Or.inl ⟨("unsound", .unsound), .tail _ (.tail _ (.head _)), rfl, hs⟩
        · next h3 =>
          refine Or.inr ⟨rfl, fun w hw => ?_⟩
          rcases List.mem_cons.1 hw with rfl | hw
          · exact fun h => h1 h.symm
          rcases List.mem_cons.1 hw with rfl | hw
          · exact fun h => h2 h.symm
          rcases List.mem_cons.1 hw with rfl | hw
          · exact fun h => h3 h.symm
          cases hw
  · rintro (⟨w, hw, rfl, rfl⟩ | ⟨rfl, h⟩)
    · have : ∀ w ∈ informationalWords, Informational.fromStr w.1.toList = w.2 := by decide
      exact this w hw
    · unfold Informational.fromStr
      rw [if_neg fun hs => h _ (.head _) hs.symm, if_neg fun hs => h _ (.tail _ (.head _)) hs.symm,
        if_neg fun hs => h _ (.tail _ (.tail _ (.head _))) hs.symm]

theorem asDeny_iff (v : Value) (d : DenyOption) : asParsed DenyOption.fromStr v = .ok d ↔ IsWord denyWords v d := by
  rw [asParsed_iff]
  constructor
  · rintro ⟨s, rfl, h⟩
    obtain ⟨w, hw, hd, rfl⟩ := (deny_iff _ _).1 h
    exact ⟨w, hw, hd, rfl⟩
  · rintro ⟨w, hw, hd, rfl⟩
    exact ⟨_, rfl, (deny_iff _ _).2 ⟨w, hw, hd, rfl⟩⟩

theorem asFormat_iff (v : Value) (d : OutputFormat) : asParsed OutputFormat.fromStr v = .ok d ↔ IsWord formatWords v d := by
  rw [asParsed_iff]
  constructor
  · rintro ⟨s, rfl, h⟩
    obtain ⟨w, hw, hd, rfl⟩ := (format_iff _ _).1 h
    exact ⟨w, hw, hd, rfl⟩
  · rintro ⟨w, hw, hd, rfl⟩
    exact ⟨_, rfl, (format_iff _ _).2 ⟨w, hw, hd, rfl⟩⟩

theorem asSeverity_iff (v : Value) (x : Severity) : asParsed Severity.fromStr v = .ok x ↔ IsSeverity v x := by
  rw [asParsed_iff]
  constructor
  · rintro ⟨s, rfl, h⟩
    obtain ⟨w, hw, hd, hs⟩ := (severity_iff _ _).1 h
    exact ⟨w, hw, hd, s, rfl, hs⟩
  · rintro ⟨w, hw, hd, s, rfl, hs⟩
    exact ⟨s, rfl, (severity_iff _ _).2 ⟨w, hw, hd, hs⟩⟩

theorem asInformational_iff (v : Value) (i : Informational) : asInformational v = .ok i ↔ IsCategory v i := by
  unfold asInformational
  rw [bind_iff]
  constructor
  · rintro ⟨s, hs, h⟩
    obtain rfl := (asStr_iff _ _).1 hs
    rcases (informational_iff _ _).1 (pure_iff.1 h) with ⟨w, hw, hi, rfl⟩ | ⟨hi, hw⟩
    · exact Or.inl ⟨w, hw, hi, rfl⟩
    · exact Or.inr ⟨s, rfl, hi, hw⟩
  · rintro (⟨w, hw, hi, rfl⟩ | ⟨s, rfl, hi, hw⟩)
    · exact ⟨_, rfl, pure_iff.2 ((informational_iff _ _).2 (Or.inl ⟨w, hw, hi, rfl⟩))⟩
    · exact ⟨_, rfl, pure_iff.2 ((informational_iff _ _).2 (Or.inr ⟨hi, hw⟩))⟩

theorem filter_iff (v : Value) (f : FilterList) : FilterList.ofValue v = .ok f ↔ IsFilter v f := by
  have hA : (fun v a => asStr v = .ok a) = IsText := by funext v a; exact propext (asStr_iff v a)
  cases v with
  | str s => simp [FilterList.ofValue, IsFilter, IsText, IsList, eq_comm]
  | arr l =>
    simp only [FilterList.ofValue, bind_iff, mapList_iff, hA, pure_iff]
    constructor
    · rintro ⟨a, h, rfl⟩
      exact Or.inr ⟨a, ⟨l, rfl, h⟩, rfl⟩
    · rintro (⟨s, h, _⟩ | ⟨a, ⟨vs, h, hf⟩, rfl⟩)
      · cases h
      · injection h with h
        exact ⟨a, h ▸ hf, rfl⟩
  | int n => simp [FilterList.ofValue, IsFilter, IsText, IsList]
  | bool b => simp [FilterList.ofValue, IsFilter, IsText, IsList]
  | table t => simp [FilterList.ofValue, IsFilter, IsText, IsList]

theorem orDefault_iff {α : Type} {f : Value → Outcome α} {R : Value → α → Prop} (h : ∀ v a, f v = .ok a ↔ R v a)
    (t : Table) (k : String) (d a : α) : orDefault t k d f = .ok a ↔ Defaulting d R (t.lookup k.toList) a := by
  unfold orDefault tableGet Defaulting
  cases t.lookup k.toList with
  | none => simp [eq_comm]
  | some v => simp [h]

theorem optionally_iff {α : Type} {f : Value → Outcome α} {R : Value → α → Prop} (h : ∀ v a, f v = .ok a ↔ R v a)
    (t : Table) (k : String) (a : Option α) : optionally t k f = .ok a ↔ Optionally R (t.lookup k.toList) a := by
  unfold optionally tableGet Optionally
  cases t.lookup k.toList with
  | none => simp [eq_comm]
  | some v =>
    simp only [bind_iff, pure_iff, h]
    constructor
    · rintro ⟨x, hx, rfl⟩
      exact Or.inr ⟨v, x, rfl, rfl, hx⟩
    · rintro (⟨h, _⟩ | ⟨v', x, hv, rfl, hx⟩)
      · cases h
      · injection hv with hv
        exact ⟨x, hv ▸ hx, rfl⟩

theorem needed_iff {α : Type} {f : Value → Outcome α} {R : Value → α → Prop} (h : ∀ v a, f v = .ok a ↔ R v a)
    (t : Table) (k : String) (a : α) : needed t k f = .ok a ↔ Mandatory R (t.lookup k.toList) a := by
  unfold needed tableGet Mandatory
  cases t.lookup k.toList with
  | none => simp
  | some v => simp [h]

/-- The keys of a table that a lookup finds are its keys. -/
theorem lookup_found (t : Table) (k : Str) : t.lookup k ≠ none ↔ ∃ v, (k, v) ∈ t := by
  induction t with
  | nil => simp
  | cons e t ih =>
    obtain ⟨a, b⟩ := e
    by_cases h : k = a
    · subst h
      simp only [List.lookup_cons_self]
      exact ⟨fun _ => ⟨b, .head _⟩, fun _ => by simp⟩
    · have : (k == a) = false := by simpa using h
      rw [List.lookup_cons, this]
      simp only [ih, List.mem_cons, Prod.mk.injEq, h, false_and, false_or]

theorem denyUnknown_iff (t : Table) (known : List String) :
    denyUnknown t known = .ok () ↔ ∀ k w, t.lookup k = some w → ∃ key ∈ known, key.toList = k := by
  have h1 : denyUnknown t known = .ok () ↔ ∀ k v, (k, v) ∈ t → ∃ key ∈ known, key.toList = k := by
    unfold denyUnknown
    have h2 : t.all (fun e => (known.map String.toList).contains e.1) = true ↔
        ∀ k v, (k, v) ∈ t → ∃ key ∈ known, key.toList = k := by
      simp only [List.all_eq_true, List.contains_eq_mem, decide_eq_true_eq, List.mem_map, Prod.forall]
    rw [← h2]
    cases t.all (fun e => (known.map String.toList).contains e.1) <;> simp
  rw [h1]
  constructor
  · intro h k w hk
    obtain ⟨v, hv⟩ := (lookup_found t k).1 (by rw [hk]; simp)
    exact h k v hv
  · intro h k v hv
    obtain ⟨w, hw⟩ := Option.ne_none_iff_exists'.1 ((lookup_found t k).2 ⟨v, hv⟩)
    exact h k w hw

/-! ### Sections -/

/-- A section that is missing, or is a table of known settings. -/
def SectionFine (doc : Table) (sec : String) (known : List String) : Prop :=
  ∀ v, doc.lookup sec.toList = some v → ∃ t, v = .table t ∧ ∀ k w, t.lookup k = some w → ∃ key ∈ known, key.toList = k

theorem setting_missing {doc : Table} {sec : String} (h : doc.lookup sec.toList = none) (key : String) :
    setting doc sec key = none := by
  unfold setting; rw [h]

theorem setting_table {doc : Table} {sec : String} {t : Table} (h : doc.lookup sec.toList = some (.table t)) (key : String) :
    setting doc sec key = t.lookup key.toList := by
  unfold setting; rw [h]

theorem fine_missing {doc : Table} {sec : String} {known : List String} (h : doc.lookup sec.toList = none) :
    SectionFine doc sec known := by
  intro v hv
  rw [h] at hv
  cases hv

theorem fine_table {doc : Table} {sec : String} {known : List String} {t : Table}
    (h : doc.lookup sec.toList = some (.table t)) :
    SectionFine doc sec known ↔ ∀ k w, t.lookup k = some w → ∃ key ∈ known, key.toList = k := by
  constructor
  · intro hf
    obtain ⟨t', ht, hk⟩ := hf _ h
    injection ht with ht
    subst ht
    exact hk
  · intro hk v hv
    rw [h] at hv
    injection hv with hv
    exact ⟨t, hv.symm, hk⟩

theorem defaulting_none {α : Type} {d a : α} {R : Value → α → Prop} : Defaulting d R none a ↔ a = d := by
  simp [Defaulting]

theorem optionally_none {α : Type} {a : Option α} {R : Value → α → Prop} : Optionally R none a ↔ a = none := by
  simp [Optionally]

theorem mandatory_none {α : Type} {a : α} {R : Value → α → Prop} : ¬ Mandatory R none a := by
  simp [Mandatory]

theorem orDefault_missing {α : Type} {f : Value → Outcome α} {doc : Table} {sec : String} {d a : α}
    (h : doc.lookup sec.toList = none) : orDefault doc sec d f = .ok a ↔ a = d := by
  unfold orDefault tableGet
  rw [h]
  exact ⟨fun h => by injection h with h; exact h.symm, fun h => by rw [h]⟩

theorem orDefault_found {α : Type} {f : Value → Outcome α} {doc : Table} {sec : String} {d : α} {v : Value}
    (h : doc.lookup sec.toList = some v) : orDefault doc sec d f = f v := by
  unfold orDefault tableGet
  rw [h]

theorem unit_iff {x : Outcome Unit} {P : Unit → Prop} : (∃ a, x = .ok a ∧ P a) ↔ x = .ok () ∧ P () :=
  ⟨fun ⟨_, h, hp⟩ => ⟨h, hp⟩, fun ⟨h, hp⟩ => ⟨(), h, hp⟩⟩

theorem section_advisories (doc : Table) (a : AdvisoryConfig) :
    orDefault doc "advisories" {} AdvisoryConfig.ofValue = .ok a ↔
      SectionFine doc "advisories" ["ignore", "informational_warnings", "severity_threshold"] ∧
      Defaulting [] (IsList IsId) (setting doc "advisories" "ignore") a.ignore ∧
      Optionally (IsList IsCategory) (setting doc "advisories" "informational_warnings") a.informationalWarnings ∧
      Optionally IsSeverity (setting doc "advisories" "severity_threshold") a.severityThreshold := by
  cases h : doc.lookup "advisories".toList with
  | none =>
    simp only [orDefault_missing h, setting_missing h, defaulting_none, optionally_none, fine_missing h, true_and]
    cases a
    simp
  | some v =>
    rw [orDefault_found h]
    cases v with
    | table t =>
      simp only [AdvisoryConfig.ofValue, bind_iff, unit_iff, denyUnknown_iff, orDefault_iff (asArr_iff asId_iff),
        optionally_iff (asArr_iff asInformational_iff), optionally_iff asSeverity_iff, setting_table h, fine_table h, pure_iff]
      constructor
      · rintro ⟨hk, x, hx, y, hy, z, hz, rfl⟩
        exact ⟨hk, hx, hy, hz⟩
      · rintro ⟨hk, hx, hy, hz⟩
        exact ⟨hk, _, hx, _, hy, _, hz, rfl⟩
    | str | int | bool | arr =>
      constructor
      · intro hc
        cases hc
      · rintro ⟨hf, _⟩
        obtain ⟨t, ht, _⟩ := hf _ h
        cases ht

theorem section_database (doc : Table) (a : DatabaseConfig) :
    orDefault doc "database" {} DatabaseConfig.ofValue = .ok a ↔
      SectionFine doc "database" ["path", "url", "fetch", "stale"] ∧
      Optionally IsText (setting doc "database" "path") a.path ∧
      Optionally IsText (setting doc "database" "url") a.url ∧
      Defaulting true IsFlag (setting doc "database" "fetch") a.fetch ∧
      ((¬ HasSection doc "database" ∧ a.stale = false) ∨ Mandatory IsFlag (setting doc "database" "stale") a.stale) := by
  unfold HasSection
  cases h : doc.lookup "database".toList with
  | none =>
    simp only [orDefault_missing h, setting_missing h, defaulting_none, optionally_none, fine_missing h, true_and,
      mandatory_none, or_false, ne_eq, not_true_eq_false, not_false_eq_true]
    cases a
    simp
  | some v =>
    rw [orDefault_found h]
    cases v with
    | table t =>
      simp only [DatabaseConfig.ofValue, bind_iff, unit_iff, denyUnknown_iff, orDefault_iff asFlag_iff,
        optionally_iff asStr_iff, needed_iff asFlag_iff, setting_table h, fine_table h, pure_iff, ne_eq, reduceCtorEq,
        not_false_eq_true, not_true_eq_false, false_and, false_or]
      constructor
      · rintro ⟨hk, x, hx, y, hy, z, hz, u, hu, rfl⟩
        exact ⟨hk, hx, hy, hz, hu⟩
      · rintro ⟨hk, hx, hy, hz, hu⟩
        exact ⟨hk, _, hx, _, hy, _, hz, _, hu, rfl⟩
    | str | int | bool | arr =>
      constructor
      · intro hc
        cases hc
      · rintro ⟨hf, _⟩
        obtain ⟨t, ht, _⟩ := hf _ h
        cases ht

theorem section_output (doc : Table) (a : OutputConfig) :
    orDefault doc "output" {} OutputConfig.ofValue = .ok a ↔
      SectionFine doc "output" ["deny", "format", "quiet", "show_tree"] ∧
      Defaulting [] (IsList (IsWord denyWords)) (setting doc "output" "deny") a.deny ∧
      Defaulting .terminal (IsWord formatWords) (setting doc "output" "format") a.format ∧
      ((¬ HasSection doc "output" ∧ a.quiet = false) ∨ Mandatory IsFlag (setting doc "output" "quiet") a.quiet) ∧
      ((¬ HasSection doc "output" ∧ a.showTree = false) ∨
        (HasSection doc "output" ∧ Defaulting true IsFlag (setting doc "output" "show_tree") a.showTree)) := by
  unfold HasSection
  cases h : doc.lookup "output".toList with
  | none =>
    simp only [orDefault_missing h, setting_missing h, defaulting_none, fine_missing h, true_and,
      mandatory_none, or_false, ne_eq, not_true_eq_false, not_false_eq_true, false_and]
    cases a
    simp
  | some v =>
    rw [orDefault_found h]
    cases v with
    | table t =>
      simp only [OutputConfig.ofValue, bind_iff, unit_iff, denyUnknown_iff, orDefault_iff asFlag_iff,
        orDefault_iff (asArr_iff asDeny_iff), orDefault_iff asFormat_iff, needed_iff asFlag_iff, setting_table h,
        fine_table h, pure_iff, ne_eq, reduceCtorEq, not_false_eq_true, not_true_eq_false, false_and, false_or, true_and]
      constructor
      · rintro ⟨hk, x, hx, y, hy, z, hz, u, hu, rfl⟩
        exact ⟨hk, hx, hy, hz, hu⟩
      · rintro ⟨hk, hx, hy, hz, hu⟩
        exact ⟨hk, _, hx, _, hy, _, hz, _, hu, rfl⟩
    | str | int | bool | arr =>
      constructor
      · intro hc
        cases hc
      · rintro ⟨hf, _⟩
        obtain ⟨t, ht, _⟩ := hf _ h
        cases ht

theorem section_target (doc : Table) (a : TargetConfig) :
    orDefault doc "target" {} TargetConfig.ofValue = .ok a ↔
      SectionFine doc "target" ["arch", "os"] ∧
      Optionally IsFilter (setting doc "target" "arch") a.arch ∧
      Optionally IsFilter (setting doc "target" "os") a.os := by
  cases h : doc.lookup "target".toList with
  | none =>
    simp only [orDefault_missing h, setting_missing h, optionally_none, fine_missing h, true_and]
    cases a
    simp
  | some v =>
    rw [orDefault_found h]
    cases v with
    | table t =>
      simp only [TargetConfig.ofValue, bind_iff, unit_iff, denyUnknown_iff, optionally_iff filter_iff, setting_table h,
        fine_table h, pure_iff]
      constructor
      · rintro ⟨hk, x, hx, y, hy, rfl⟩
        exact ⟨hk, hx, hy⟩
      · rintro ⟨hk, hx, hy⟩
        exact ⟨hk, _, hx, _, hy, rfl⟩
    | str | int | bool | arr =>
      constructor
      · intro hc
        cases hc
      · rintro ⟨hf, _⟩
        obtain ⟨t, ht, _⟩ := hf _ h
        cases ht

theorem section_yanked (doc : Table) (a : YankedConfig) :
    orDefault doc "yanked" {} YankedConfig.ofValue = .ok a ↔
      SectionFine doc "yanked" ["enabled", "update_index"] ∧
      Defaulting true IsFlag (setting doc "yanked" "enabled") a.enabled ∧
      Defaulting true IsFlag (setting doc "yanked" "update_index") a.updateIndex := by
  cases h : doc.lookup "yanked".toList with
  | none =>
    simp only [orDefault_missing h, setting_missing h, defaulting_none, fine_missing h, true_and]
    cases a
    simp
  | some v =>
    rw [orDefault_found h]
    cases v with
    | table t =>
      simp only [YankedConfig.ofValue, bind_iff, unit_iff, denyUnknown_iff, orDefault_iff asFlag_iff, setting_table h,
        fine_table h, pure_iff]
      constructor
      · rintro ⟨hk, x, hx, y, hy, rfl⟩
        exact ⟨hk, hx, hy⟩
      · rintro ⟨hk, hx, hy⟩
        exact ⟨hk, _, hx, _, hy, rfl⟩
    | str | int | bool | arr =>
      constructor
      · intro hc
        cases hc
      · rintro ⟨hf, _⟩
        obtain ⟨t, ht, _⟩ := hf _ h
        cases ht

theorem only_iff (doc : Table) : OnlySettings doc ↔
    denyUnknown doc ["advisories", "database", "output", "target", "yanked"] = .ok () ∧
    ∀ sec ∈ configSettings, SectionFine doc sec.1 sec.2 := by
  rw [denyUnknown_iff]
  have hnames : configSettings.map Prod.fst = ["advisories", "database", "output", "target", "yanked"] := rfl
  have hinj : ∀ a ∈ configSettings, ∀ b ∈ configSettings, a.1.toList = b.1.toList → a = b := by decide
  constructor
  · intro h
    refine ⟨fun s v hv => ?_, fun sec hsec v hv => ?_⟩
    · obtain ⟨sec, hsec, hs, _⟩ := h s v hv
      exact ⟨sec.1, hnames ▸ List.mem_map_of_mem hsec, hs⟩
    · obtain ⟨sec', hsec', hs, t, ht, hk⟩ := h _ v hv
      have := hinj sec' hsec' sec hsec hs
      subst this
      exact ⟨t, ht, hk⟩
  · rintro ⟨h1, h2⟩ s v hv
    obtain ⟨key, hkey, rfl⟩ := h1 s v hv
    rw [← hnames] at hkey
    obtain ⟨sec, hsec, rfl⟩ := List.mem_map.1 hkey
    obtain ⟨t, ht, hk⟩ := h2 sec hsec v hv
    exact ⟨sec, hsec, rfl, t, ht, hk⟩

/-! ### The theorems -/

/-- **C88.** A text is read as a configuration exactly if it is a TOML document that describes it. -/
theorem C88_config (s : Str) (c : AuditConfig) :
    AuditConfig.fromText s = .ok c ↔ ∃ doc, Toml.read s = some doc ∧ Describes doc c := by
  unfold AuditConfig.fromText
  rw [bind_iff]
  refine exists_congr fun doc => and_congr (ofOption_iff _ _) ?_
  unfold AuditConfig.ofTable
  simp only [bind_iff, unit_iff, section_advisories, section_database, section_output, section_target, section_yanked,
    pure_iff]
  constructor
  · rintro ⟨hu, a, ⟨ha, a1, a2, a3⟩, d, ⟨hd, d1, d2, d3, d4⟩, o, ⟨ho, o1, o2, o3, o4⟩, t, ⟨ht, t1, t2⟩, y, ⟨hy, y1, y2⟩, rfl⟩
    refine ⟨(only_iff doc).2 ⟨hu, fun sec hsec => ?_⟩, a1, a2, a3, d1, d2, d3, d4, o1, o2, o3, o4, t1, t2, y1, y2⟩
    rcases List.mem_cons.1 hsec with rfl | hsec
    · exact ha
    rcases List.mem_cons.1 hsec with rfl | hsec
    · exact hd
    rcases List.mem_cons.1 hsec with rfl | hsec
    · exact ho
    rcases List.mem_cons.1 hsec with rfl | hsec
    · exact ht
    rcases List.mem_cons.1 hsec with rfl | hsec
    · exact hy
    cases hsec
  · rintro ⟨ho, a1, a2, a3, d1, d2, d3, d4, o1, o2, o3, o4, t1, t2, y1, y2⟩
    obtain ⟨hu, hs⟩ := (only_iff doc).1 ho
    exact ⟨hu, _, ⟨hs _ (.head _), a1, a2, a3⟩, _, ⟨hs _ (.tail _ (.head _)), d1, d2, d3, d4⟩, _,
      ⟨hs _ (.tail _ (.tail _ (.head _))), o1, o2, o3, o4⟩, _, ⟨hs _ (.tail _ (.tail _ (.tail _ (.head _)))), t1, t2⟩, _,
      ⟨hs _ (.tail _ (.tail _ (.tail _ (.tail _ (.head _))))), y1, y2⟩, rfl⟩

/-- What a document says is determined by the document. -/
theorem describes_unique {doc : Table} {c c' : AuditConfig} (h : Describes doc c) (h' : Describes doc c') : c = c' := by
  have key : ∀ c, Describes doc c → AuditConfig.ofTable doc = .ok c := by
    rintro c ⟨ho, a1, a2, a3, d1, d2, d3, d4, o1, o2, o3, o4, t1, t2, y1, y2⟩
    unfold AuditConfig.ofTable
    simp only [bind_iff, unit_iff, section_advisories, section_database, section_output, section_target, section_yanked,
      pure_iff]
    obtain ⟨hu, hs⟩ := (only_iff doc).1 ho
    exact ⟨hu, _, ⟨hs _ (.head _), a1, a2, a3⟩, _, ⟨hs _ (.tail _ (.head _)), d1, d2, d3, d4⟩, _,
      ⟨hs _ (.tail _ (.tail _ (.head _))), o1, o2, o3, o4⟩, _, ⟨hs _ (.tail _ (.tail _ (.tail _ (.head _)))), t1, t2⟩, _,
      ⟨hs _ (.tail _ (.tail _ (.tail _ (.tail _ (.head _))))), y1, y2⟩, rfl⟩
  have h1 := key c h
  rw [key c' h'] at h1
  injection h1 with h1
  exact h1.symm

/-! ### No panic -/

theorem pure_calm {α : Type} (a : α) : (pure a : Outcome α) ≠ .panic := fun h => by cases h

theorem asStr_calm (v : Value) : asStr v ≠ .panic := by cases v <;> exact fun h => by cases h

theorem asFlag_calm (v : Value) : asFlag v ≠ .panic := by cases v <;> exact fun h => by cases h

theorem asArr_calm {α : Type} {f : Value → Outcome α} (h : ∀ v, f v ≠ .panic) (v : Value) : asArr f v ≠ .panic := by
  cases v with
  | arr l => exact mapList_calm (fun v => h v) l
  | str | int | bool | table => exact fun h => by cases h

theorem asParsed_calm {α : Type} (f : Str → Option α) (v : Value) : asParsed f v ≠ .panic :=
  bind_calm (asStr_calm v) fun _ => ofOption_calm _

theorem asId_calm (v : Value) : asId v ≠ .panic := bind_calm (asStr_calm v) fun s => (C19_accepts_iff s).2

theorem asInformational_calm (v : Value) : asInformational v ≠ .panic := bind_calm (asStr_calm v) fun _ => pure_calm _

theorem orDefault_calm {α : Type} {f : Value → Outcome α} (h : ∀ v, f v ≠ .panic) (t : Table) (k : String) (d : α) :
    orDefault t k d f ≠ .panic := by
  unfold orDefault
  split
  · exact h _
  · exact fun h => by cases h

theorem optionally_calm {α : Type} {f : Value → Outcome α} (h : ∀ v, f v ≠ .panic) (t : Table) (k : String) :
    optionally t k f ≠ .panic := by
  unfold optionally
  split
  · exact bind_calm (h _) fun _ => pure_calm _
  · exact fun h => by cases h

theorem needed_calm {α : Type} {f : Value → Outcome α} (h : ∀ v, f v ≠ .panic) (t : Table) (k : String) :
    needed t k f ≠ .panic := by
  unfold needed
  split
  · exact h _
  · exact fun h => by cases h

theorem denyUnknown_calm (t : Table) (known : List String) : denyUnknown t known ≠ .panic := by
  unfold denyUnknown
  split <;> exact fun h => by cases h

theorem filter_calm (v : Value) : FilterList.ofValue v ≠ .panic := by
  cases v with
  | arr l => exact bind_calm (mapList_calm (fun v => asStr_calm v) l) fun _ => pure_calm _
  | str | int | bool | table => exact fun h => by cases h

/-- **C88, no panic.** Reading a configuration gives a configuration or an error, whatever the text. -/
theorem C88_no_panic (s : Str) : AuditConfig.fromText s ≠ .panic := by
  have ha : ∀ v, AdvisoryConfig.ofValue v ≠ .panic := by
    intro v
    cases v with
    | table t =>
      exact bind_calm (denyUnknown_calm _ _) fun _ => bind_calm (orDefault_calm (asArr_calm asId_calm) _ _ _) fun _ =>
        bind_calm (optionally_calm (asArr_calm asInformational_calm) _ _) fun _ =>
        bind_calm (optionally_calm (asParsed_calm _) _ _) fun _ => pure_calm _
    | str | int | bool | arr => exact fun h => by cases h
  have hd : ∀ v, DatabaseConfig.ofValue v ≠ .panic := by
    intro v
    cases v with
    | table t =>
      exact bind_calm (denyUnknown_calm _ _) fun _ => bind_calm (optionally_calm asStr_calm _ _) fun _ =>
        bind_calm (optionally_calm asStr_calm _ _) fun _ =>
        bind_calm (orDefault_calm asFlag_calm _ _ _) fun _ => bind_calm (needed_calm asFlag_calm _ _) fun _ => pure_calm _
    | str | int | bool | arr => exact fun h => by cases h
  have ho : ∀ v, OutputConfig.ofValue v ≠ .panic := by
    intro v
    cases v with
    | table t =>
      exact bind_calm (denyUnknown_calm _ _) fun _ => bind_calm (orDefault_calm (asArr_calm (asParsed_calm _)) _ _ _)
        fun _ => bind_calm (orDefault_calm (asParsed_calm _) _ _ _) fun _ =>
        bind_calm (needed_calm asFlag_calm _ _) fun _ => bind_calm (orDefault_calm asFlag_calm _ _ _) fun _ => pure_calm _
    | str | int | bool | arr => exact fun h => by cases h
  have ht : ∀ v, TargetConfig.ofValue v ≠ .panic := by
    intro v
    cases v with
    | table t =>
      exact bind_calm (denyUnknown_calm _ _) fun _ => bind_calm (optionally_calm filter_calm _ _) fun _ =>
        bind_calm (optionally_calm filter_calm _ _) fun _ => pure_calm _
    | str | int | bool | arr => exact fun h => by cases h
  have hy : ∀ v, YankedConfig.ofValue v ≠ .panic := by
    intro v
    cases v with
    | table t =>
      exact bind_calm (denyUnknown_calm _ _) fun _ => bind_calm (orDefault_calm asFlag_calm _ _ _) fun _ =>
        bind_calm (orDefault_calm asFlag_calm _ _ _) fun _ => pure_calm _
    | str | int | bool | arr => exact fun h => by cases h
  exact bind_calm (ofOption_calm _) fun t => bind_calm (denyUnknown_calm _ _) fun _ =>
    bind_calm (orDefault_calm ha _ _ _) fun _ => bind_calm (orDefault_calm hd _ _ _) fun _ =>
    bind_calm (orDefault_calm ho _ _ _) fun _ => bind_calm (orDefault_calm ht _ _ _) fun _ =>
    bind_calm (orDefault_calm hy _ _ _) fun _ => pure_calm _

theorem fromText_err {s : Str} (h : ∀ c, AuditConfig.fromText s ≠ .ok c) : AuditConfig.fromText s = .err := by
  cases hs : AuditConfig.fromText s with
  | ok c => exact absurd hs (h c)
  | err => rfl
  | panic => exact absurd hs (C88_no_panic s)

/-- **C88, misspellings.** A file that sets anything undocumented is an error: no setting is ignored silently. -/
theorem C88_misspelt (s : Str) (doc : Table) (hs : Toml.read s = some doc) (h : Misspelt doc) :
    AuditConfig.fromText s = .err := by
  refine fromText_err fun c hc => ?_
  obtain ⟨doc', hs', hd⟩ := (C88_config s c).1 hc
  rw [hs] at hs'
  injection hs' with hs'
  subst hs'
  rcases h with ⟨k, hk, hn⟩ | ⟨sec, hsec, t, k, ht, hk, hn⟩
  · obtain ⟨v, hv⟩ := Option.ne_none_iff_exists'.1 hk
    obtain ⟨sec, hsec, he, _⟩ := hd.only k v hv
    exact hn sec hsec he
  · obtain ⟨v, hv⟩ := Option.ne_none_iff_exists'.1 hk
    obtain ⟨_, hf⟩ := (only_iff doc).1 hd.only
    obtain ⟨key, hkey, he⟩ := (fine_table ht).1 (hf sec hsec) k v hv
    exact hn key hkey he

/-- **C88, settings that cannot be left out.** A file with a `[database]` section without `stale`, or with an `[output]`
section without `quiet`, is an error, although both are documented with a default. -/
theorem C88_mandatory (s : Str) (doc : Table) (hs : Toml.read s = some doc)
    (h : (HasSection doc "database" ∧ setting doc "database" "stale" = none) ∨
      (HasSection doc "output" ∧ setting doc "output" "quiet" = none)) :
    AuditConfig.fromText s = .err := by
  refine fromText_err fun c hc => ?_
  obtain ⟨doc', hs', hd⟩ := (C88_config s c).1 hc
  rw [hs] at hs'
  injection hs' with hs'
  subst hs'
  rcases h with ⟨h1, h2⟩ | ⟨h1, h2⟩
  · rcases hd.stale with ⟨h, _⟩ | ⟨v, hv, _⟩
    · exact h h1
    · rw [h2] at hv; cases hv
  · rcases hd.quiet with ⟨h, _⟩ | ⟨v, hv, _⟩
    · exact h h1
    · rw [h2] at hv; cases hv

/-! ### The file in force -/

theorem endsSlash_iff (d : Str) : endsWith d "/" = true ↔ ∃ e, d = e ++ ['/'] := by
  unfold endsWith
  rw [List.isSuffixOf_iff_suffix]
  exact ⟨fun ⟨e, h⟩ => ⟨e, h.symm⟩, fun ⟨e, h⟩ => ⟨e, h.symm⟩⟩

theorem joinConfig_iff (home p : Str) : joinConfig home = p ↔ UserConfig home p := by
  have hc : (home.isEmpty || endsWith home "/") = true ↔ (home = [] ∨ ∃ e, home = e ++ ['/']) := by
    rw [Bool.or_eq_true, endsSlash_iff, List.isEmpty_iff]
  unfold joinConfig UserConfig
  by_cases h : home = [] ∨ ∃ e, home = e ++ ['/']
  · rw [if_pos (hc.2 h)]
    exact ⟨fun e => Or.inl ⟨h, e.symm⟩, fun e => by rcases e with ⟨_, e⟩ | ⟨e, _⟩; exacts [e.symm, absurd h e]⟩
  · rw [if_neg fun e => h (hc.1 e)]
    exact ⟨fun e => Or.inr ⟨h, e.symm⟩, fun e => by rcases e with ⟨e, _⟩ | ⟨_, e⟩; exacts [absurd e h, e.symm]⟩

theorem configPath_iff (w : ConfigWorld) (p : Str) : configPath w = some p ↔ InForce w p := by
  have hp : joinConfig "./.cargo".toList = projectConfig := by decide
  unfold configPath InForce
  simp only [hp]
  by_cases h : w.pathExists projectConfig = true
  · rw [if_pos h]
    constructor
    · intro e
      injection e with e
      subst e
      exact Or.inl ⟨rfl, h⟩
    · rintro (⟨rfl, _⟩ | ⟨h', _⟩)
      · rfl
      · rw [h] at h'; cases h'
  · rw [if_neg h]
    have hf : w.pathExists projectConfig = false := by simpa using h
    cases hh : w.cargoHome with
    | none =>
      constructor
      · intro e; cases e
      · rintro (⟨rfl, h'⟩ | ⟨_, _, e, _⟩)
        · exact absurd h' h
        · cases e
    | some home =>
      show (if w.pathExists (joinConfig home) = true then some (joinConfig home) else none) = some p ↔ _
      constructor
      · intro e
        split at e
        · next he =>
          injection e with e
          subst e
          exact Or.inr ⟨hf, home, rfl, (joinConfig_iff _ _).1 rfl, he⟩
        · cases e
      · rintro (⟨rfl, h'⟩ | ⟨_, home', e, hu, he⟩)
        · exact absurd h' h
        · injection e with e
          subst e
          rw [(joinConfig_iff _ _).2 hu, if_pos he]

/-- **C88, the file in force.** The configuration `cargo audit` runs with is what the one file in force says, with the
options of the command line on top; without a file it is the default with the options on top.  Files are never merged. -/
theorem C88_effective (w : ConfigWorld) (cmd : AuditCommand) (c' : AuditConfig) :
    effectiveConfig w cmd = .ok c' ↔
      (∃ p s doc c, InForce w p ∧ w.contents p = some s ∧ Toml.read s = some doc ∧ Describes doc c ∧
        cmd.overrideConfig c = .ok c') ∨
      ((∀ p, ¬ InForce w p) ∧ cmd.overrideConfig {} = .ok c') := by
  unfold effectiveConfig loadedConfig
  cases hp : configPath w with
  | none =>
    have hn : ∀ p, ¬ InForce w p := fun p h => by rw [(configPath_iff w p).2 h] at hp; cases hp
    constructor
    · intro h
      exact Or.inr ⟨hn, h⟩
    · rintro (⟨p, _, _, _, h, _⟩ | ⟨_, h⟩)
      · exact absurd h (hn p)
      · exact h
  | some p =>
    have hp' := (configPath_iff w p).1 hp
    simp only [bind_iff, ofOption_iff, C88_config]
    constructor
    · rintro ⟨c, ⟨s, hs, doc, hd, hc⟩, h⟩
      exact Or.inl ⟨p, s, doc, c, hp', hs, hd, hc, h⟩
    · rintro (⟨q, s, doc, c, hq, hs, hd, hc, h⟩ | ⟨h, _⟩)
      · rw [(configPath_iff w q).2 hq] at hp
        injection hp with hp
        subst hp
        exact ⟨c, ⟨s, hs, doc, hd, hc⟩, h⟩
      · exact absurd hp' (h p)

/-- **C88, precedence.** With a configuration file in the project nothing of the user's matters: neither where cargo's home
directory is, nor whether it has a configuration, nor what that says. -/
theorem C88_project_first (w w' : ConfigWorld) (cmd : AuditCommand) (hw : w.pathExists projectConfig = true)
    (hw' : w'.pathExists projectConfig = true) (hc : w.contents projectConfig = w'.contents projectConfig) :
    effectiveConfig w cmd = effectiveConfig w' cmd := by
  unfold effectiveConfig loadedConfig
  rw [(configPath_iff w projectConfig).2 (Or.inl ⟨rfl, hw⟩), (configPath_iff w' projectConfig).2 (Or.inl ⟨rfl, hw'⟩)]
  simp only [hc]

/-- **C88, what a report is filtered by.** With a configuration file in force, the advisories left out of the report are
those whose IDs the file lists followed by those of `--ignore`, the severity threshold is the file's, and the targets are
those of the command line or, if it names none, the file's. -/
theorem C88_report (w : ConfigWorld) (cmd : AuditCommand) (c' : AuditConfig) (p s : Str) (doc : Table)
    (h : effectiveConfig w cmd = .ok c') (hp : InForce w p) (hs : w.contents p = some s) (hd : Toml.read s = some doc) :
    (∃ file line, Defaulting [] (IsList IsId) (setting doc "advisories" "ignore") file ∧
      List.Forall₂ (fun s id => Id.fromStr s = .ok id) cmd.ignore line ∧ c'.reportSettings.ignore = file ++ line) ∧
    Optionally IsSeverity (setting doc "advisories" "severity_threshold") c'.reportSettings.severity ∧
    (cmd.targetArch ≠ [] → c'.reportSettings.targetArch = cmd.targetArch) ∧
    (cmd.targetArch = [] → ∃ f, Optionally IsFilter (setting doc "target" "arch") f ∧
      c'.reportSettings.targetArch = FilterList.values f) ∧
    (cmd.targetOs ≠ [] → c'.reportSettings.targetOs = cmd.targetOs) ∧
    (cmd.targetOs = [] → ∃ f, Optionally IsFilter (setting doc "target" "os") f ∧
      c'.reportSettings.targetOs = FilterList.values f) := by
  rcases (C88_effective w cmd c').1 h with ⟨q, s', doc', c, hq, hs', hd', hc, ho⟩ | ⟨hn, _⟩
  · have hpq : q = p := by
      have h1 := (configPath_iff w q).2 hq
      rw [(configPath_iff w p).2 hp] at h1
      injection h1 with h1
      exact h1.symm
    subst hpq
    rw [hs] at hs'
    injection hs' with hs'
    subst hs'
    rw [hd] at hd'
    injection hd' with hd'
    subst hd'
    obtain ⟨⟨ids, hids, hign⟩, _, hsev, _, _, _, _, ha1, ha2, hb1, hb2, _⟩ := (C44_override cmd c).2.2 c' ho
    refine ⟨⟨c.advisories.ignore, ids, hc.ignore, hids, hign⟩, ?_, ha1, ?_, hb1, ?_⟩
    · show Optionally _ _ c'.advisories.severityThreshold
      rw [hsev]
      exact hc.severity
    · intro e
      exact ⟨c.target.arch, hc.arch, by rw [← ha2 e]; rfl⟩
    · intro e
      exact ⟨c.target.os, hc.os, by rw [← hb2 e]; rfl⟩
  · exact absurd hp (hn p)

/-- **C88, an empty file.** A file that sets nothing is as good as none. -/
theorem C88_empty (s : Str) (h : Toml.read s = some []) : AuditConfig.fromText s = .ok {} := by
  unfold AuditConfig.fromText
  rw [h]
  rfl

end Verif.Props
