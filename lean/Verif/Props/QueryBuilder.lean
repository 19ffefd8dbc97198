import Verif.Spec.QueryBuilder
import Verif.Props.Database

/-!
# C87: chains of query calls
-/

namespace Verif.Props

open Verif.Semver Verif.Lock Verif.Adv Verif.Db Verif.Spec

private theorem lastSaid_snoc {β : Type} (about : QueryCall → Option β) (cs : List QueryCall) (c : QueryCall) :
    lastSaid about (cs ++ [c]) = (about c).or (lastSaid about cs) := by
  unfold lastSaid
  rw [List.filterMap_append, List.getLast?_append]
  cases h : about c <;> simp [h]

private theorem calls_snoc (q : Query) (cs : List QueryCall) (c : QueryCall) :
    q.calls (cs ++ [c]) = (q.calls cs).call c := by
  simp [Query.calls]

/-- The fields of the query are what the calls said, or what they were before. -/
private theorem calls_from (q : Query) (cs : List QueryCall) :
    q.calls cs = ⟨(lastSaid saysCollection cs).or q.collection,
      (lastSaid saysName cs).or q.packageName,
      (lastSaid saysVersion cs).or q.packageVersion,
      (lastSaid saysSource cs).getD q.packageSource,
      (lastSaid saysSeverity cs).or q.severity,
      (lastSaid saysArch cs).getD q.targetArch,
      (lastSaid saysOs cs).getD q.targetOs,
      (lastSaid saysYear cs).or q.year,
      (lastSaid saysWithdrawn cs).or q.withdrawn,
      (lastSaid saysInformational cs).or q.informational⟩ := by
  induction cs using List.reverseRecOn with
  | nil => rfl
  | append_singleton cs c ih =>
    rw [calls_snoc, ih]
    simp only [lastSaid_snoc]
    cases c <;> rfl

private theorem calls_fields (cs : List QueryCall) :
    (Query.new.calls cs).collection = lastSaid saysCollection cs ∧
    (Query.new.calls cs).packageName = lastSaid saysName cs ∧
    (Query.new.calls cs).packageVersion = lastSaid saysVersion cs ∧
    (Query.new.calls cs).packageSource = (lastSaid saysSource cs).join ∧
    (Query.new.calls cs).severity = lastSaid saysSeverity cs ∧
    (Query.new.calls cs).targetArch = (lastSaid saysArch cs).getD [] ∧
    (Query.new.calls cs).targetOs = (lastSaid saysOs cs).getD [] ∧
    (Query.new.calls cs).year = lastSaid saysYear cs ∧
    (Query.new.calls cs).withdrawn = lastSaid saysWithdrawn cs ∧
    (Query.new.calls cs).informational = lastSaid saysInformational cs := by
  rw [calls_from]
  refine ⟨?_, ?_, ?_, ?_, ?_, rfl, rfl, ?_, ?_, ?_⟩ <;> simp only [Query.new, Option.or_none]
  cases lastSaid saysSource cs <;> rfl

/-- C87: a query built by any chain of calls matches exactly the advisories that the last call about each criterion asks
for; criteria no call speaks about do not matter. -/
theorem C87_matches (cs : List QueryCall) (a : Advisory) :
    (Query.new.calls cs).matches a = true ↔ AskedFor cs a := by
  obtain ⟨h1, h2, h3, h4, h5, h6, h7, h8, h9, h10⟩ := calls_fields cs
  rw [C12_matches_iff]
  constructor
  · intro h
    refine ⟨?_, ?_, ?_, ?_, ?_, ?_, ?_, ?_, ?_, ?_⟩
    · intro c hc; exact h.collection c (h1 ▸ hc)
    · intro c hc; exact h.name c (h2 ▸ hc)
    · intro c hc; exact h.version c (h3 ▸ hc)
    · intro s hs; exact h.source s (by rw [h4, hs]; rfl)
    · intro th sev hc; exact h.severity th sev (h5 ▸ hc)
    · intro af l ha hl
      have := h.arch af ha
      rw [h6, hl] at this
      exact this
    · intro af l ha hl
      have := h.os af ha
      rw [h7, hl] at this
      exact this
    · intro y y' hc; exact h.year y y' (h8 ▸ hc)
    · intro b hc; exact h.withdrawn b (h9 ▸ hc)
    · intro b hc; exact h.informational b (h10 ▸ hc)
  · intro h
    refine ⟨?_, ?_, ?_, ?_, ?_, ?_, ?_, ?_, ?_, ?_⟩
    · intro c hc; exact h.collection c (h1 ▸ hc)
    · intro c hc; exact h.name c (h2 ▸ hc)
    · intro c hc; exact h.version c (h3 ▸ hc)
    · intro s hs
      rw [h4] at hs
      exact h.source s (Option.join_eq_some_iff.mp hs)
    · intro th sev hc; exact h.severity th sev (h5 ▸ hc)
    · intro af ha
      rw [h6]
      cases hl : lastSaid saysArch cs with
      | none => exact Or.inr (Or.inl rfl)
      | some l => exact h.arch af l ha hl
    · intro af ha
      rw [h7]
      cases hl : lastSaid saysOs cs with
      | none => exact Or.inr (Or.inl rfl)
      | some l => exact h.os af l ha hl
    · intro y y' hc; exact h.year y y' (h8 ▸ hc)
    · intro b hc; exact h.withdrawn b (h9 ▸ hc)
    · intro b hc; exact h.informational b (h10 ▸ hc)

/-- C87: a chain that starts with `crate_scope()` (also the default query) is one on `new()` that first asks for crates
that are neither withdrawn nor informational. -/
theorem C87_crate_scope (cs : List QueryCall) (a : Advisory) :
    ((Query.crateScope.calls cs).matches a = true ↔ AskedFor (crateScopeCalls ++ cs) a) ∧
    ((Query.default.calls cs).matches a = true ↔ AskedFor (crateScopeCalls ++ cs) a) := by
  have : Query.crateScope.calls cs = Query.new.calls (crateScopeCalls ++ cs) := by
    simp [Query.calls, crateScopeCalls, Query.call, Query.setCollection, Query.setWithdrawn, Query.setInformational,
      Query.crateScope, Query.new]
  exact ⟨by rw [this, C87_matches], by rw [Query.default, this, C87_matches]⟩

/-- C87: a loaded database answers a chain of calls with exactly the advisories asked for, in the order of the database. -/
theorem C87_query (t : Tree) (db : Database) (h : Database.open t = .ok db) (cs : List QueryCall) :
    ∃ l, db.query (Query.new.calls cs) = some l ∧ l.Sublist db.iter ∧ ∀ a, a ∈ l ↔ a ∈ db.iter ∧ AskedFor cs a := by
  refine ⟨_, C11_query_eq_scan t db h _, List.filter_sublist, ?_⟩
  intro a
  rw [List.mem_filter, C87_matches]

/-- C87: chains in which every criterion has the same last word build the same query. -/
theorem C87_last_word (q : Query) (cs ds : List QueryCall) (h : SameLastWord cs ds) : q.calls cs = q.calls ds := by
  obtain ⟨h1, h2, h3, h4, h5, h6, h7, h8, h9, h10⟩ := h
  rw [calls_from, calls_from, h1, h2, h3, h4, h5, h6, h7, h8, h9, h10]

private theorem lastSaid_swap {β : Type} {about : QueryCall → Option β} {c d : QueryCall} (cs es : List QueryCall)
    (h : about c = none ∨ about d = none) :
    lastSaid about (cs ++ c :: d :: es) = lastSaid about (cs ++ d :: c :: es) := by
  unfold lastSaid
  rw [List.filterMap_append, List.filterMap_append]
  congr 2
  rcases h with h | h <;> simp [List.filterMap_cons, h]

private theorem lastSaid_again {β : Type} (about : QueryCall → Option β) (c : QueryCall) (cs ds es : List QueryCall) :
    lastSaid about (cs ++ c :: (ds ++ c :: es)) = lastSaid about (cs ++ (ds ++ c :: es)) := by
  unfold lastSaid
  cases h : about c with
  | none => simp [List.filterMap_append, h]
  | some b =>
    simp only [List.filterMap_append, List.filterMap_cons, h, List.getLast?_append, List.getLast?_cons]
    cases (es.filterMap about).getLast? <;> simp

/-- C87: calls that do not speak about the same thing can be made in any order, and a call that is made again later need
not be made before. -/
theorem C87_order (q : Query) (cs ds es : List QueryCall) (c d : QueryCall) :
    (Independent c d → q.calls (cs ++ c :: d :: es) = q.calls (cs ++ d :: c :: es)) ∧
    (q.calls (cs ++ c :: (ds ++ c :: es)) = q.calls (cs ++ (ds ++ c :: es))) := by
  constructor
  · rintro ⟨h1, h2, h3, h4, h5, h6, h7, h8, h9, h10⟩
    exact C87_last_word q _ _ ⟨lastSaid_swap _ _ h1, lastSaid_swap _ _ h2, lastSaid_swap _ _ h3, lastSaid_swap _ _ h4,
      lastSaid_swap _ _ h5, lastSaid_swap _ _ h6, lastSaid_swap _ _ h7, lastSaid_swap _ _ h8, lastSaid_swap _ _ h9,
      lastSaid_swap _ _ h10⟩
  · exact C87_last_word q _ _ ⟨lastSaid_again .., lastSaid_again .., lastSaid_again .., lastSaid_again ..,
      lastSaid_again .., lastSaid_again .., lastSaid_again .., lastSaid_again .., lastSaid_again .., lastSaid_again ..⟩

/-- C87: unlike what the documentation of `withdrawn` and `informational` says, `Query::new()` leaves neither out: only
`crate_scope()` and `default()` do. -/
theorem C87_new_omits_nothing (a : Advisory) :
    Query.new.matches a = true ∧ (a.metadata.withdrawn ≠ none ∨ a.metadata.informational ≠ none →
      Query.default.matches a = false) := by
  refine ⟨(C12_unset_and_monotone Query.new Query.new a).1, ?_⟩
  intro h
  rw [← Bool.not_eq_true]
  intro hm
  have := ((C87_crate_scope [] a).2).mp hm
  rcases h with h | h
  · exact absurd ((this.withdrawn false rfl).mpr h) (by decide)
  · exact absurd ((this.informational false rfl).mpr h) (by decide)

/-! ### Examples -/

/-- The year is set twice: the second counts; the database has one such advisory of this package in the crates. -/
example : (exDb.query (Query.new.calls [.year 1999, .packageName "foo".toList, .collection .crates, .year 2022])).map
    (·.map (·.metadata.id.string)) = some ["RUSTSEC-2022-0002".toList] := by decide +kernel

/-- `package` after `package_source`: the source is the package's. -/
example : (Query.new.calls [.packageSource sparseSource, .package { exPackage gitIndexSource with source := none }]).packageSource
    = none := by decide +kernel

example : AskedFor [.year 1999, .packageName "foo".toList, .year 2021, .withdrawn false] (stored .crates exAdvisory) :=
  (C87_matches _ _).mp (by decide +kernel)

example : ¬ AskedFor [.year 2021, .packageName "foo".toList, .year 1999] (stored .crates exAdvisory) := by
  rw [← C87_matches]
  decide +kernel

example : Independent (.year 1) (.severity .high) ∧ ¬ Independent (.package (exPackage sparseSource)) (.packageName []) := by
  refine ⟨by simp [Independent, saysCollection, saysName, saysVersion, saysSource, saysSeverity, saysArch, saysOs, saysYear,
    saysWithdrawn, saysInformational], fun h => ?_⟩
  rcases h.2.1 with h | h <;> cases h

end Verif.Props
