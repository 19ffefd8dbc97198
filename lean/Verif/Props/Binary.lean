import Verif.Spec.Binary
import Verif.Props.Platform
import Verif.Props.Report
import Mathlib.Data.List.Forall2

/-!
# Theorems: findings in binaries (C47, C48)
-/

namespace Verif.Props

open Verif.Bin Verif.Adv Verif.Plat Verif.Rep Verif.Spec

/-! ## C47 -/

theorem appleOSs_spec : ∃ apple, appleOSs = some apple ∧ ∀ os, apple.contains os = true ↔ AppleOs os := by
  have h : (appleOSs.any fun apple => Os.all.all fun os => decide (apple.contains os = true ↔
      (os = .macOS ∨ os = .iOS ∨ os = .tvOS ∨ os = .watchOS ∨ os = .visionOS))) = true := by decide +kernel
  cases e : appleOSs with
  | none => rw [e] at h; cases h
  | some apple =>
    rw [e] at h
    simp only [Option.any_some, List.all_eq_true, decide_eq_true_eq] at h
    refine ⟨apple, rfl, fun os => h os ?_⟩
    cases os <;> decide

theorem mem_filterMap_os (l : List Str) (os : Os) : os ∈ l.filterMap Os.fromStr ↔ os.asStr ∈ l := by
  obtain ⟨h1, h2⟩ := C42_names.2.1
  rw [List.mem_filterMap]
  constructor
  · rintro ⟨s, hs, e⟩
    rwa [h2 s os e]
  · intro h; exact ⟨_, h, h1 os⟩

theorem runsBinary_spec (f : BinaryFormat) (l : List Str) :
    ∃ b, runsBinary f l = some b ∧
      (b = true ↔ f = .unknown ∨ ∃ os : Os, os.asStr ∈ l ∧ RunsOn f os) := by
  obtain ⟨apple, ha, hos⟩ := appleOSs_spec
  cases f <;>
    simp only [runsBinary, ha, Option.map_some, Option.some.injEq, exists_eq_left', RunsOn, List.any_eq_true,
      mem_filterMap_os, Bool.and_eq_true, decide_eq_true_eq, Bool.not_eq_true', ← hos, Bool.or_eq_true,
      List.contains_iff_mem, reduceCtorEq, false_or, true_or, iff_true, ne_eq]
  · simp
  · simp
  · simp

theorem applicable_spec (f : BinaryFormat) (a : Option Affected) :
    ∃ b, applicable f a = some b ∧ (b = true ↔ Concerns f a) := by
  cases a with
  | none => exact ⟨true, rfl, by simp [Concerns]⟩
  | some af =>
    simp only [applicable, Concerns, Option.some.injEq, forall_eq']
    cases h : af.os with
    | nil => exact ⟨true, rfl, by simp⟩
    | cons o os =>
      obtain ⟨b, hb, hiff⟩ := runsBinary_spec f (o :: os)
      exact ⟨b, by simpa using hb, by simpa using hiff⟩

open Classical in
theorem retain_spec {α : Type} (g : α → Option Affected) (f : BinaryFormat) (l : List α) :
    retain (fun x => applicable f (g x)) l = some (l.filter fun x => decide (Concerns f (g x))) := by
  induction l with
  | nil => rfl
  | cons x l ih =>
    obtain ⟨b, hb, hiff⟩ := applicable_spec f (g x)
    have : b = decide (Concerns f (g x)) := by rw [Bool.eq_iff_iff, hiff, decide_eq_true_iff]
    simp only [retain, hb, ih, this, List.filter_cons]

open Classical in
theorem filterWarnings_spec (f : BinaryFormat) (w : WarningInfo) :
    filterWarnings f w = some (w.map fun e => (e.1, e.2.filter fun x => decide (Concerns f x.affected))) := by
  induction w with
  | nil => rfl
  | cons e w ih => obtain ⟨k, ws⟩ := e; simp only [filterWarnings, retain_spec, ih, List.map_cons]

open Classical in
/-- **C47.**  Filtering a report whose count is right never panics; it keeps exactly the vulnerabilities and
warnings that concern binaries of the format, in order, under the same kinds; `count` and `found` describe the new
list; the settings stay; and filtering again changes nothing. -/
theorem C47_filter (f : BinaryFormat) (r : Report)
    (hcount : r.vulnerabilities.count = r.vulnerabilities.list.length) :
    ∃ r', filterReport f r = some r' ∧
      r'.vulnerabilities.list = r.vulnerabilities.list.filter (fun v => decide (Concerns f v.affected)) ∧
      r'.vulnerabilities.count = r'.vulnerabilities.list.length ∧
      (r'.vulnerabilities.found = true ↔ r'.vulnerabilities.list ≠ []) ∧
      r'.warnings = r.warnings.map (fun e => (e.1, e.2.filter fun w => decide (Concerns f w.affected))) ∧
      r'.settings = r.settings ∧
      filterReport f r' = some r' := by
  simp only [filterReport, hcount, ne_eq, not_true_eq_false, if_false, retain_spec, filterWarnings_spec]
  refine ⟨_, rfl, rfl, rfl, ?_, rfl, rfl, ?_⟩
  · simp
  · simp only [not_true_eq_false, if_false, List.filter_filter, Bool.and_self, List.map_map]
    congr 3
    funext e
    simp [List.filter_filter]

/-- **C47, panics.**  The filter panics exactly when the report's count is wrong … -/
theorem C47_panic_iff (f : BinaryFormat) (r : Report) :
    filterReport f r = none ↔ r.vulnerabilities.count ≠ r.vulnerabilities.list.length := by
  constructor
  · intro h hc
    obtain ⟨r', h', -⟩ := C47_filter f r hc
    rw [h] at h'; cases h'
  · intro h
    have h' : r.vulnerabilities.list.length ≠ r.vulnerabilities.count := fun e => h e.symm
    simp only [filterReport, h', ne_eq, not_false_eq_true, if_true]

/-- … which no generated report has. -/
theorem C47_generated (t : Db.Tree) (db : Db.Database) (h : Db.Database.open t = .ok db)
    (hval : ∀ a ∈ db.iter, Validated a) (packages : List Lock.Package) (s : Settings) (f : BinaryFormat) :
    ∃ r r', Report.generate db packages s = some r ∧ filterReport f r = some r' := by
  obtain ⟨r, h1, -, -, h2, -⟩ := C15_vulnerability_list t db h hval packages s
  obtain ⟨r', h3, -⟩ := C47_filter f r h2
  exact ⟨r, r', h1, h3⟩

/-- **C47, unknown names.**  A finding limited to operating systems whose names are all unknown to `platforms` is
removed for every format but the unknown one. -/
theorem C47_unknown_os (f : BinaryFormat) (af : Affected) (hne : af.os ≠ [])
    (h : ∀ s ∈ af.os, Os.fromStr s = none) : Concerns f (some af) ↔ f = .unknown := by
  simp only [Concerns, Option.some.injEq, forall_eq', hne, false_or, or_iff_left_iff_imp]
  rintro ⟨os, hos, -⟩
  have := h _ hos
  rw [C42_names.2.1.1 os] at this
  cases this

/-- A report with a Windows-only and a general vulnerability, and a Windows-only warning. -/
def binReport : Report :=
  let v1 : Vulnerability := { Vulnerability.new exAdvisory (exPackage gitIndexSource) with
    affected := some { os := ["windows".toList] } }
  let v2 : Vulnerability := Vulnerability.new exAdvisory (exPackage gitIndexSource)
  { settings := {}, vulnerabilities := VulnerabilityInfo.new [v1, v2],
    warnings := [(.unmaintained, [⟨.unmaintained, exPackage gitIndexSource, none, some { os := ["windows".toList, "macos".toList] }, none⟩])] }

example : binReport.vulnerabilities.count = binReport.vulnerabilities.list.length ∧
    ((filterReport .elf64 binReport).map fun r => (r.vulnerabilities.count, r.warnings.map (·.2.length))) = some (1, [0]) ∧
    ((filterReport .pe binReport).map fun r => (r.vulnerabilities.count, r.warnings.map (·.2.length))) = some (2, [1]) ∧
    ((filterReport .macho binReport).map fun r => (r.vulnerabilities.count, r.warnings.map (·.2.length))) = some (1, [1]) := by
  refine ⟨?_, ?_, ?_, ?_⟩ <;> decide +kernel

example : ∀ s ∈ ["darwin".toList], Os.fromStr s = none := by decide +kernel

/-! ## C48 -/

theorem advance_spec (seg : Str) (l : List Str) :
    (∀ rest, advance seg l = some rest → ∃ pre, l = pre ++ seg :: rest ∧ seg ∉ pre) ∧
    (advance seg l = none → seg ∉ l) := by
  induction l with
  | nil => exact ⟨fun _ h => by simp [advance] at h, by simp⟩
  | cons s l ih =>
    unfold advance
    by_cases h : s = seg
    · simp only [h, if_true, Option.some.injEq, reduceCtorEq, false_implies, and_true]
      rintro rest rfl
      exact ⟨[], rfl, by simp⟩
    · simp only [h, if_false]
      refine ⟨fun rest hr => ?_, fun hn => ?_⟩
      · obtain ⟨pre, rfl, hp⟩ := ih.1 rest hr
        exact ⟨s :: pre, rfl, by simp [hp, Ne.symm h]⟩
      · have := ih.2 hn
        simp [this, Ne.symm h]

theorem isSubsequence_iff (path symbol : List Str) : isSubsequence path symbol = true ↔ path.Sublist symbol := by
  induction path generalizing symbol with
  | nil => simp [isSubsequence]
  | cons seg path ih =>
    unfold isSubsequence
    cases e : advance seg symbol with
    | none =>
      have := (advance_spec seg symbol).2 e
      simp only [Bool.false_eq_true, false_iff]
      intro h
      exact this (h.subset (by simp))
    | some rest =>
      obtain ⟨pre, rfl, hp⟩ := (advance_spec seg symbol).1 rest e
      simp only [ih]
      constructor
      · intro h; exact (h.cons_cons seg).trans (List.sublist_append_right _ _)
      · intro h
        clear e
        induction pre with
        | nil => simpa using h
        | cons x pre ihp =>
          simp only [List.mem_cons, not_or] at hp
          cases h with
          | cons _ h => exact ihp hp.2 h
          | cons_cons _ h => exact absurd rfl hp.1

theorem split3_iff (l : List Str) (f : Str) (m : List Str) (n : Str) :
    split3 l = some (f, m, n) ↔ l = f :: m ++ [n] := by
  unfold split3
  cases l with
  | nil => simp
  | cons x rest =>
    simp only [Option.map_eq_some_iff, Prod.mk.injEq]
    constructor
    · rintro ⟨a, ha, rfl, rfl, rfl⟩
      have hne : rest ≠ [] := by rintro rfl; simp at ha
      rw [List.getLast?_eq_some_getLast hne] at ha
      cases ha
      rw [List.cons_append, List.dropLast_append_getLast]
    · intro h
      simp only [List.cons_append, List.cons.injEq] at h
      obtain ⟨rfl, rfl⟩ := h
      exact ⟨n, by simp⟩

theorem symbolMatches_iff (symbol path : List Str) :
    symbolMatches symbol path = true ↔ (∃ s, symbol = [s] ∧ path = [s]) ∨ SymbolIs symbol path := by
  unfold symbolMatches
  split
  next a b =>
    simp only [decide_eq_true_eq, List.cons.injEq, and_true]
    constructor
    · rintro rfl; exact Or.inl ⟨_, rfl, rfl⟩
    · rintro (⟨s, rfl, rfl⟩ | ⟨k, bt, ip, n, h1, h2, -⟩)
      · rfl
      · simp at h1
  next h =>
    have hno : ¬ ∃ s, symbol = [s] ∧ path = [s] := by
      rintro ⟨s, rfl, rfl⟩; exact h s s rfl rfl
    rw [or_iff_right hno]
    split
    next f m l f' m' l' e1 e2 =>
      rw [split3_iff] at e1 e2
      subst e1 e2
      simp only [Bool.and_eq_true, decide_eq_true_eq, isSubsequence_iff]
      constructor
      · rintro ⟨⟨rfl, hs⟩, rfl⟩; exact ⟨f, m, m', l, rfl, rfl, hs⟩
      · rintro ⟨k, bt, ip, n, h1, h2, hs⟩
        simp only [List.cons_append, List.cons.injEq] at h1 h2
        obtain ⟨rfl, h1⟩ := h1
        obtain ⟨rfl, h2⟩ := h2
        obtain ⟨rfl, h1⟩ := List.append_inj' h1 rfl
        obtain ⟨rfl, h2⟩ := List.append_inj' h2 rfl
        exact ⟨⟨rfl, hs⟩, by simp_all⟩
    next hn =>
      simp only [Bool.false_eq_true, false_iff]
      rintro ⟨k, bt, ip, n, h1, h2, -⟩
      exact hn _ _ _ _ _ _ ((split3_iff _ _ _ _).mpr h1) ((split3_iff _ _ _ _).mpr h2)

theorem mem_takeWhile_lt (s : Str) : '<' ∉ s.takeWhile (fun c => decide (c ≠ '<')) := by
  induction s with
  | nil => simp
  | cons c s ih =>
    rw [List.takeWhile_cons]
    split
    next h => simp only [List.mem_cons, not_or]; exact ⟨fun e => by simp [← e] at h, ih⟩
    next => simp

theorem takeWhile_lt_self (s : Str) (h : '<' ∉ s) (r : Str) :
    (s ++ r).takeWhile (fun c => decide (c ≠ '<')) = s ++ r.takeWhile (fun c => decide (c ≠ '<')) := by
  induction s with
  | nil => rfl
  | cons c s ih =>
    simp only [List.mem_cons, not_or] at h
    rw [List.cons_append, List.takeWhile_cons, if_pos (by simpa using Ne.symm h.1), ih h.2, List.cons_append]

theorem isCut_iff (s cut : Str) : IsCut s cut ↔ cut = cutGeneric s := by
  unfold IsCut cutGeneric
  constructor
  · rintro ⟨h, rfl | ⟨rest, rfl⟩⟩
    · have := takeWhile_lt_self s h []
      simpa using this.symm
    · rw [takeWhile_lt_self _ h]; simp
  · rintro rfl
    refine ⟨mem_takeWhile_lt s, ?_⟩
    have e := List.takeWhile_append_dropWhile (p := fun c => decide (c ≠ '<')) (l := s)
    cases hd : s.dropWhile (fun c => decide (c ≠ '<')) with
    | nil => left; rw [hd, List.append_nil] at e; exact e.symm
    | cons c rest =>
      right
      have hc : c = '<' := by
        have := List.head?_dropWhile_not (fun c => decide (c ≠ '<')) s
        rw [hd] at this
        simpa using this
      subst hc
      exact ⟨rest, by rw [← hd]; exact e.symm⟩

/-- **C48.**  The affected functions reported as present are the advisory's, in order: exactly those paths (of two
or more segments, as every parsed path has) for which some symbol of the binary starts with the same crate, ends
with the same function and contains the segments between as a subsequence, generic parameters left out. -/
theorem C48_present_iff (symbols affected : List (List Str)) :
    (filterFunctions symbols affected).Sublist affected ∧
    ∀ path, 2 ≤ path.length → (path ∈ filterFunctions symbols affected ↔
      path ∈ affected ∧ ∃ symbol ∈ symbols, ∃ cut, List.Forall₂ IsCut path cut ∧ SymbolIs symbol cut) := by
  refine ⟨List.filter_sublist, fun path hlen => ?_⟩
  unfold filterFunctions
  simp only [List.mem_filter, List.any_eq_true, symbolMatches_iff]
  refine and_congr_right fun hmem => exists_congr fun symbol => and_congr_right fun _ => ?_
  have hcut : ∀ cut, List.Forall₂ IsCut path cut ↔ cut = path.map cutGeneric := by
    intro cut
    clear hlen hmem
    induction path generalizing cut with
    | nil => cases cut <;> simp
    | cons p path ih =>
      cases cut with
      | nil => simp
      | cons c cut => simp [List.forall₂_cons, isCut_iff, ih]
  constructor
  · rintro (⟨s, -, h⟩ | h)
    · have := congrArg List.length h
      simp at this; omega
    · exact ⟨_, (hcut _).mpr rfl, h⟩
  · rintro ⟨cut, hc, hs⟩
    rw [(hcut _).mp hc] at hs
    exact Or.inr hs

/-- **C48, limits.**  A path with a segment starting with `<` (such as `krate::<Type>::method`, which advisories may
contain) is never reported as present, whatever the binary contains: symbols have no empty segments. -/
theorem C48_angle_never (symbols affected : List (List Str)) (hs : ∀ symbol ∈ symbols, ∀ seg ∈ symbol, seg ≠ [])
    (path : List Str) (seg rest : Str) (hseg : seg ∈ path) (he : seg = '<' :: rest) :
    path ∉ filterFunctions symbols affected := by
  unfold filterFunctions
  simp only [List.mem_filter, List.any_eq_true, symbolMatches_iff, not_and, not_exists]
  rintro - symbol hsym hm
  have hnil : ([] : Str) ∈ path.map cutGeneric := List.mem_map.mpr ⟨seg, hseg, by simp [he, cutGeneric]⟩
  have hno : ([] : Str) ∉ symbol := fun h => hs symbol hsym _ h rfl
  rcases hm with ⟨s, rfl, h⟩ | ⟨k, bt, ip, n, rfl, h, hsub⟩
  · rw [h] at hnil; exact hno hnil
  · rw [h] at hnil
    apply hno
    simp only [List.cons_append, List.mem_cons, List.mem_append] at hnil ⊢
    rcases hnil with h | h | h
    · exact Or.inl h
    · exact Or.inr (Or.inl (hsub.subset h))
    · exact Or.inr (Or.inr h)

theorem pushAll_flatten (t : TypePath) (stack : List (List Str)) :
    (pushAll t stack).flatten = flattenTypePath t ++ stack.flatten := by
  unfold flattenTypePath
  induction t generalizing stack with
  | plain s => simp [pushAll]
  | qself inner s ih => simp only [pushAll]; rw [ih, ih [s]]; simp

/-- **C48, type paths.**  The segments of `<T as …>::a::b` are those of `T` followed by `a`, `b`. -/
theorem C48_flatten (inner : TypePath) (segments : List Str) :
    flattenTypePath (.plain segments) = segments ∧
    flattenTypePath (.qself inner segments) = flattenTypePath inner ++ segments := by
  refine ⟨by simp [flattenTypePath, pushAll], ?_⟩
  conv_lhs => unfold flattenTypePath
  rw [pushAll, pushAll_flatten]; simp

/-- **C48, versions.**  The functions looked for are those listed with a requirement the locked version meets. -/
theorem C48_affected_functions (v : Vulnerability) (path : List Str) :
    (∃ l, affectedFunctions v = some l ∧ path ∈ l) ↔
      ∃ af reqs, v.affected = some af ∧ (path, reqs) ∈ af.functions ∧ ∃ req ∈ reqs, req.isMatch v.package.version = true := by
  unfold affectedFunctions
  cases v.affected with
  | none => simp
  | some af =>
    simp only [Option.some.injEq, exists_and_left, exists_eq_left']
    by_cases h : af.functions.isEmpty
    · have : af.functions = [] := by simpa using h
      simp [this]
    · simp only [h, Bool.false_eq_true, if_false, Option.some.injEq, exists_eq_left', List.mem_filterMap]
      constructor
      · rintro ⟨⟨p, reqs⟩, hm, he⟩
        by_cases hb : reqs.any (fun req => req.isMatch v.package.version)
        · rw [if_pos hb] at he
          cases he
          exact ⟨reqs, hm, by simpa using hb⟩
        · rw [if_neg hb] at he; cases he
      · rintro ⟨reqs, hm, hr⟩
        refine ⟨(path, reqs), hm, ?_⟩
        rw [if_pos]
        simpa using hr

example : filterFunctions [["xmp".toList, "file".toList, "Xmp".toList, "close".toList], ["main".toList]]
    [["xmp".toList, "Xmp<T>".toList, "close".toList], ["xmp".toList, "Xmp".toList, "open".toList],
     ["xmp".toList, "<Xmp>".toList, "close".toList]] = [["xmp".toList, "Xmp<T>".toList, "close".toList]] := by
  decide +kernel

example : flattenTypePath (.qself (.plain ["xmp".toList, "Xmp".toList]) ["Drop".toList, "drop".toList]) =
    ["xmp".toList, "Xmp".toList, "Drop".toList, "drop".toList] := by decide +kernel

end Verif.Props
