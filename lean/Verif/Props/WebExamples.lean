import Verif.Props.WebFeed
import Verif.Props.OsvExportExamples

/-!
# C70: examples and violations
-/

namespace Verif.Props

open Verif.Adv Verif.Web Verif.Git Verif.Export Verif.Lock Verif.Sync Verif.Spec Std

/-- **C70.**  If the file of an advisory is not in the repository, or has no dates, nothing is written. -/
theorem C70_no_dates (E : WebEnv) (as : List AdvisoryFile) (a : AdvisoryFile) (ha : a ∈ as) (hn : ∀ d, ¬ Dated E a d) :
    (renderAdvisories E as).writes = [] ∧ (renderAdvisories E as).result ≠ .ok () := by
  have h : ∀ ds, Outcome.mapList (Data.new E) as ≠ .ok ds := by
    intro ds he
    obtain ⟨d, -, hd⟩ := forall2_left ((mapList_iff _ _ _).mp he) ha
    exact hn d ((dated_iff E a d).mp hd)
  unfold renderAdvisories
  cases ho : Outcome.mapList (Data.new E) as with
  | ok ds => exact absurd ho (h ds)
  | err => exact ⟨rfl, fun h => by cases h⟩
  | panic => exact ⟨rfl, fun h => by cases h⟩

/-! ### An environment for examples -/

/-- Numbers of dates that grow with the date. -/
def webDays (s : Str) : Option Int :=
  match splitC '-' s with
  | [y, m, d] => some (10000 * Nat.ofDigitChars 10 y 0 + 100 * Nat.ofDigitChars 10 m 0 + Nat.ofDigitChars 10 d 0 : Nat)
  | _ => none

theorem webDays_iso {s : Str} {y m d : Nat} (h : IsoText s y m d) :
    webDays s = some ((10000 * y + 100 * m + d : Nat) : Int) ∧ m < 100 ∧ d < 100 := by
  obtain ⟨ys, ms, ds, hs, l1, l2, l3, hd, rfl, rfl, rfl⟩ := h
  refine ⟨?_, ?_, ?_⟩
  · unfold webDays
    rw [isoText_split hs hd]
  · have := ofDigitChars_lt ms (fun c hc => hd c (by simp [hc])) 0
    rw [l2] at this
    omega
  · have := ofDigitChars_lt ds (fun c hc => hd c (by simp [hc])) 0
    rw [l3] at this
    omega

theorem webDays_law : DayLaw webDays := by
  intro s y m d s' y' m' d' n n' h h' hn hn' hle
  obtain ⟨h1, h2, h3⟩ := webDays_iso h
  obtain ⟨h1', h2', h3'⟩ := webDays_iso h'
  rw [h1] at hn
  rw [h1'] at hn'
  cases hn
  cases hn'
  omega

/-- Days 18691 to 18720 are 2021-03-05 to 2021-04-03. -/
def webCal : Int → Int × Nat × Nat := fun d =>
  if 18687 ≤ d ∧ d ≤ 18717 then (2021, 3, (d - 18686).toNat) else (10000, 1, 1)

/-- An advisory. -/
def webAdvisory (id package : String) (aliases : List String) (keywords : List String) (categories : List Category) :
    AdvisoryFile where
  metadata := {
    id := ⟨.rustSec, some 2021, id.toList⟩, package := package.toList, title := "Title".toList, description := [],
    date := ⟨"2021-03-04".toList⟩, aliases := aliases.map fun s => ⟨.cve, some 2021, s.toList⟩, related := [],
    collection := some .crates, categories, keywords := keywords.map String.toList, cvss := none,
    informational := none, references := [], source := none, url := none, withdrawn := none, license := .ccZero10,
    expectDeleted := false }
  affected := none
  versions := ⟨[], []⟩

/-- The path of the file of an advisory. -/
def webFile (id package : String) : Str := ("crates/" ++ package ++ "/" ++ id ++ ".md").toList

/-- The files that were added on these days. -/
def webEnv (files : List (Str × Int)) : WebEnv where
  exp := {
    adv := exportLib, cal := webCal,
    modTimes := {
      mtimes := files.map fun f => (f.1, ⟨86400 * f.2, 0⟩), ctimes := files.map fun f => (f.1, ⟨86400 * f.2, 0⟩) }
    tracked := fun p => files.any fun f => f.1 == p }
  lower := fun s => s.map Char.toLower
  ymd := fun y m d => decide (1 ≤ m ∧ m ≤ 12 ∧ 1 ≤ d ∧ d ≤ 31 ∧ 2000 ≤ y)
  days := webDays
  stamp := fun s => s.length == 25
  today := 20210320

/-- Three advisories for two packages. -/
def webThree : List AdvisoryFile :=
  [webAdvisory "RUSTSEC-2021-0001" "foo" ["CVE-2021-1234"] ["mem safety", "mem-safety"] [.memoryCorruption],
   webAdvisory "RUSTSEC-2021-0002" "Bar" ["CVE-2021-1234"] ["tls"] [.memoryCorruption, .memoryCorruption],
   webAdvisory "RUSTSEC-2021-0003" "foo" ["CVE-2021-9999", "CVE-2021-9999"] [] [.malicious]]

/-- Their files. -/
def webThreeEnv : WebEnv := webEnv [(webFile "RUSTSEC-2021-0001" "foo", 18691),
  (webFile "RUSTSEC-2021-0002" "Bar", 18693), (webFile "RUSTSEC-2021-0003" "foo", 18702)]

/-- The data of the three advisories. -/
def webThreeData : List Data :=
  match Outcome.mapList (Data.new webThreeEnv) webThree with
  | .ok ds => ds
  | _ => []

theorem webThree_dated : List.Forall₂ (Dated webThreeEnv) webThree webThreeData := by
  have h : (Outcome.mapList (Data.new webThreeEnv) webThree).isOk = true := by decide +kernel
  cases ho : Outcome.mapList (Data.new webThreeEnv) webThree with
  | ok ds =>
    have : webThreeData = ds := by unfold webThreeData; rw [ho]
    rw [this]
    exact ((mapList_iff _ _ _).mp ho).imp fun a d h => (dated_iff _ a d).mp h
  | err => rw [ho] at h; cases h
  | panic => rw [ho] at h; cases h

theorem webThree_result : (renderAdvisories webThreeEnv webThree).result = .ok () := by
  have h : (renderAdvisories webThreeEnv webThree).result.isOk = true := by decide +kernel
  cases ho : (renderAdvisories webThreeEnv webThree).result with
  | ok u => rfl
  | err => rw [ho] at h; cases h
  | panic => rw [ho] at h; cases h

/-- The texts of a list. -/
def idsOf (l : Listing) : List String := l.map fun e => String.ofList e.2

/-- What the page of this file lists. -/
def listed (r : SiteRun) (p : SitePath) : Option (List String) :=
  match r.file p with
  | some (.sub s) => some (idsOf s.entries)
  | some (.listing l) => some (idsOf l)
  | some (.index _ items) => some (items.map fun i => String.ofList i.name)
  | some (.feed es _) => some (es.map fun e => String.ofList e.title)
  | _ => none

/-- The hypotheses of C70 are met by this site: three advisories, two packages. -/
example : List.Forall₂ (Dated webThreeEnv) webThree webThreeData ∧
    (renderAdvisories webThreeEnv webThree).result = .ok () ∧ DayLaw webThreeEnv.days ∧
    listed (renderAdvisories webThreeEnv webThree) (htmlFile "packages" "foo".toList) =
      some ["RUSTSEC-2021-0003: foo contained malicious code", "RUSTSEC-2021-0001: Vulnerability in foo"] ∧
    listed (renderAdvisories webThreeEnv webThree) (htmlFile "packages" "index".toList) = some ["Bar", "foo"] ∧
    listed (renderAdvisories webThreeEnv webThree) (htmlFile "keywords" "mem-safety".toList) =
      some ["RUSTSEC-2021-0001: Vulnerability in foo"] ∧
    listed (renderAdvisories webThreeEnv webThree) (htmlFile "keywords" "index".toList) = some ["mem-safety", "tls"] ∧
    listed (renderAdvisories webThreeEnv webThree) ("".toList, "feed.xml".toList) =
      some ["RUSTSEC-2021-0003: foo contained malicious code", "RUSTSEC-2021-0002: Vulnerability in Bar",
        "RUSTSEC-2021-0001: Vulnerability in foo"] := by
  refine ⟨webThree_dated, webThree_result, webDays_law, ?_, ?_, ?_, ?_, ?_⟩ <;> decide +kernel

/-- The hypotheses of `C70_advisories`, `C70_feed` and `C70_package_index` are met by this site. -/
example : (∀ d ∈ webThreeData, ∀ d' ∈ webThreeData,
      d.advisory.metadata.id.string = d'.advisory.metadata.id.string → d = d') ∧
    (∀ d ∈ webThreeData, d.advisory.metadata.id.string ≠ "index".toList) ∧
    (∀ d ∈ webThreeData, packageOf d ≠ "index".toList) ∧
    (∀ d ∈ webThreeData, ∃ y m n, IsoText d.created.text y m n) := by
  have hids : (webThreeData.map fun d => d.advisory.metadata.id.string).Nodup := by decide +kernel
  refine ⟨fun d hd d' hd' he => List.inj_on_of_nodup_map hids hd hd' he, ?_, ?_, ?_⟩
  · have : webThreeData.all (fun d => decide (d.advisory.metadata.id.string ≠ "index".toList)) = true := by decide +kernel
    exact fun d hd => of_decide_eq_true (List.all_eq_true.mp this d hd)
  · have : webThreeData.all (fun d => decide (packageOf d ≠ "index".toList)) = true := by decide +kernel
    exact fun d hd => of_decide_eq_true (List.all_eq_true.mp this d hd)
  · intro d hd
    have : webThreeData.all (fun d => decide (d.created.text ∈
        ["2021-03-05".toList, "2021-03-07".toList, "2021-03-16".toList])) = true := by decide +kernel
    have hm := of_decide_eq_true (List.all_eq_true.mp this d hd)
    have iso : ∀ a b : Char, a.isDigit = true → b.isDigit = true →
        ∃ y m n, IsoText ("2021-03-".toList ++ [a, b]) y m n := fun a b ha hb =>
      ⟨_, _, _, "2021".toList, "03".toList, [a, b], rfl, rfl, rfl, rfl, by
        intro c hc
        have hc' : c ∈ ['2', '0', '2', '1', '0', '3', a, b] := hc
        simp only [List.mem_cons, List.not_mem_nil, or_false] at hc'
        rcases hc' with rfl | rfl | rfl | rfl | rfl | rfl | rfl | rfl <;> first | rfl | assumption, rfl, rfl, rfl⟩
    rcases List.mem_cons.mp hm with h | hm
    · rw [h]; exact iso '0' '5' rfl rfl
    · rcases List.mem_cons.mp hm with h | hm
      · rw [h]; exact iso '0' '7' rfl rfl
      · rw [List.mem_singleton.mp hm]; exact iso '1' '6' rfl rfl

theorem showsDate_of {E : WebEnv} {t : DateText} (h : (friendlyDate E t).isOk = true) : ShowsDate E t := by
  unfold friendlyDate at h
  cases hy : t.year with
  | ok y =>
    cases hm : t.month with
    | ok m =>
      cases hd : t.day with
      | ok n =>
        rw [hy, hm, hd] at h
        simp only [Outcome.bind_ok] at h
        split at h
        · exact ⟨y, m, n, hy, hm, hd, by assumption⟩
        · cases h
      | err => rw [hy, hm, hd] at h; cases h
      | panic => rw [hy, hm, hd] at h; cases h
    | err => rw [hy, hm] at h; cases h
    | panic => rw [hy, hm] at h; cases h
  | err => rw [hy] at h; cases h
  | panic => rw [hy] at h; cases h

/-- A test of `Presentable`. -/
def presentableB (E : WebEnv) (d : Data) : Bool :=
  (friendlyDate E d.advisory.metadata.date).isOk && (friendlyDate E d.created).isOk && (friendlyDate E d.modified).isOk &&
  (E.days d.created.text).isSome && E.stamp (d.created.text ++ "T12:00:00+00:00".toList) &&
  E.stamp (d.modified.text ++ "T12:00:00+00:00".toList) && (osvOf E d).isOk

theorem presentable_of {E : WebEnv} {d : Data} (h : presentableB E d = true) : Presentable E d := by
  unfold presentableB at h
  simp only [Bool.and_eq_true] at h
  obtain ⟨⟨⟨⟨⟨⟨h1, h2⟩, h3⟩, h4⟩, h5⟩, h6⟩, h7⟩ := h
  refine ⟨showsDate_of h1, showsDate_of h2, showsDate_of h3, Option.isSome_iff_exists.mp h4, h5, h6, ?_⟩
  cases ho : osvOf E d with
  | ok o => exact ⟨o, osvOf_ok ho⟩
  | err => rw [ho] at h7; cases h7
  | panic => rw [ho] at h7; cases h7

/-- The hypotheses of `C70_finishes` are met by this site. -/
example : webThree ≠ [] ∧ ∀ d ∈ webThreeData, Presentable webThreeEnv d := by
  refine ⟨List.cons_ne_nil _ _, fun d hd => presentable_of ?_⟩
  have : webThreeData.all (presentableB webThreeEnv) = true := by decide +kernel
  exact List.all_eq_true.mp this d hd

/-- An advisory of a thirteenth month. -/
def webBad : List AdvisoryFile :=
  let a := webAdvisory "RUSTSEC-2021-0001" "foo" [] [] []
  [{ a with metadata := { a.metadata with date := ⟨"2021-13-04".toList⟩ } }]

/-- The hypotheses of `C70_bad_dates` are met by it. -/
example : ∃ ds d, List.Forall₂ (Dated webThreeEnv) webBad ds ∧ d ∈ ds ∧
    ¬ (ShowsDate webThreeEnv d.advisory.metadata.date ∧ ShowsDate webThreeEnv d.created ∧
      (d.created = d.modified ∨ ShowsDate webThreeEnv d.modified)) := by
  have h : (match Outcome.mapList (Data.new webThreeEnv) webBad with
    | .ok [d] => !(friendlyDate webThreeEnv d.advisory.metadata.date).isOk
    | _ => false) = true := by decide +kernel
  cases ho : Outcome.mapList (Data.new webThreeEnv) webBad with
  | err => rw [ho] at h; cases h
  | panic => rw [ho] at h; cases h
  | ok ds =>
    rw [ho] at h
    match ds with
    | [] => cases h
    | _ :: _ :: _ => cases h
    | [d] =>
      refine ⟨[d], d, ((mapList_iff _ _ _).mp ho).imp fun a d h => (dated_iff _ a d).mp h, .head _, fun hs => ?_⟩
      change (!(friendlyDate webThreeEnv d.advisory.metadata.date).isOk) = true at h
      rw [(friendlyDate_iff _ _).2 hs.1] at h
      cases h

/-- What a search on the site answers, as texts. -/
def found (E : WebEnv) (as : List AdvisoryFile) (term : String) : Option (String × List String) :=
  match (renderAdvisories E as).file ("js".toList, "index.js".toList) with
  | some (.search ids packages) =>
    match search E ids packages term.toList with
    | .page p => some ("page", [String.ofList (p.1 ++ '/' :: p.2)])
    | .results l => some ("results", l.map fun x => String.ofList x.string)
    | .nothing => none
  | _ => none

/-- Searches. -/
example : found webThreeEnv webThree "FOO" = some ("page", ["packages/foo.html"]) ∧
    found webThreeEnv webThree "rustsec-2021-0002" = some ("page", ["advisories/RUSTSEC-2021-0002.html"]) ∧
    found webThreeEnv webThree "CVE-2021-1234" = some ("results", ["RUSTSEC-2021-0002", "RUSTSEC-2021-0001"]) ∧
    found webThreeEnv webThree "serde" = none := by
  refine ⟨?_, ?_, ?_, ?_⟩ <;> decide +kernel

/-! ### Violations -/

/-- **C70, violation.**  A search for a package with a capital letter in its name leads to a page that does not exist,
even if the name is typed as it is. -/
theorem C70_capital_name_not_found : ∃ (E : WebEnv) (as : List AdvisoryFile) (ids : List (Str × List Id))
    (packages : List Str) (p : SitePath) (a : AdvisoryFile), a ∈ as ∧ (renderAdvisories E as).result = .ok () ∧
    (renderAdvisories E as).file ("js".toList, "index.js".toList) = some (.search ids packages) ∧
    search E ids packages a.metadata.package = .page p ∧ (renderAdvisories E as).file p = none := by
  have h : (match (renderAdvisories webThreeEnv webThree).file ("js".toList, "index.js".toList) with
    | some (.search ids packages) =>
      (match search webThreeEnv ids packages "Bar".toList with
      | .page p => decide (p = htmlFile "packages" "bar".toList)
      | _ => false)
    | _ => false) = true := by decide +kernel
  cases hf : (renderAdvisories webThreeEnv webThree).file ("js".toList, "index.js".toList) with
  | none => rw [hf] at h; cases h
  | some page =>
    rw [hf] at h
    cases page with
    | search ids packages =>
      simp only at h
      cases hs : search webThreeEnv ids packages "Bar".toList with
      | page p =>
        rw [hs] at h
        have hp : p = htmlFile "packages" "bar".toList := of_decide_eq_true h
        refine ⟨webThreeEnv, webThree, ids, packages, p, _, List.mem_cons_of_mem _ List.mem_cons_self, webThree_result,
          hf, hs, ?_⟩
        have hn : ((renderAdvisories webThreeEnv webThree).file (htmlFile "packages" "bar".toList)).isNone = true := by
          decide +kernel
        rw [hp]
        exact Option.isNone_iff_eq_none.mp hn
      | results l => rw [hs] at h; cases h
      | nothing => rw [hs] at h; cases h
    | _ => cases h

/-- **C70, violation.**  An advisory with an alias that is listed twice is found twice, so that the search does not lead
to its page. -/
example : found webThreeEnv webThree "CVE-2021-9999" = some ("results", ["RUSTSEC-2021-0003", "RUSTSEC-2021-0003"]) := by
  decide +kernel

/-- Whether a list has three entries, the first two of them of the same advisory. -/
def twiceB : Listing → Bool
  | [x, y, _] => decide (x.1.advisory.metadata.id = y.1.advisory.metadata.id)
  | _ => false

theorem twiceB_iff {l : Listing} (h : twiceB l = true) :
    ∃ x y z, l = [x, y, z] ∧ x.1.advisory.metadata.id = y.1.advisory.metadata.id := by
  unfold twiceB at h
  split at h
  · rename_i x y z
    exact ⟨x, y, z, rfl, of_decide_eq_true h⟩
  · exact absurd h Bool.false_ne_true

/-- **C70, violation.**  A category that an advisory names twice lists it twice. -/
theorem C70_category_twice : ∃ (E : WebEnv) (as : List AdvisoryFile) (k : Str) (s : Sub) (x y z : Data × Str),
    (renderAdvisories E as).result = .ok () ∧ as.length = 3 ∧
    (renderAdvisories E as).file (htmlFile "categories" k) = some (.sub s) ∧ s.entries = [x, y, z] ∧
    x.1.advisory.metadata.id = y.1.advisory.metadata.id := by
  have h : (match (renderAdvisories webThreeEnv webThree).file (htmlFile "categories" "memory-corruption".toList) with
    | some (.sub s) => twiceB s.entries
    | _ => false) = true := by decide +kernel
  cases hf : (renderAdvisories webThreeEnv webThree).file (htmlFile "categories" "memory-corruption".toList) with
  | none => rw [hf] at h; cases h
  | some page =>
    rw [hf] at h
    cases page with
    | sub s =>
      obtain ⟨x, y, z, he, hx⟩ := twiceB_iff (l := s.entries) h
      exact ⟨webThreeEnv, webThree, _, s, x, y, z, webThree_result, rfl, hf, he, hx⟩
    | _ => cases h

/-- A package that is called `index`. -/
def webIndex : List AdvisoryFile := [webAdvisory "RUSTSEC-2021-0001" "index" [] [] []]

/-- The site of it. -/
def webIndexEnv : WebEnv := webEnv [(webFile "RUSTSEC-2021-0001" "index", 18691)]

/-- **C70, violation.**  The page of a package called `index` replaces the index of packages. -/
theorem C70_index_replaced : ∃ (E : WebEnv) (as : List AdvisoryFile) (s : Sub),
    (renderAdvisories E as).result = .ok () ∧
    (renderAdvisories E as).file (htmlFile "packages" "index".toList) = some (.sub s) := by
  have h : (match (renderAdvisories webIndexEnv webIndex).file (htmlFile "packages" "index".toList) with
    | some (.sub _) => (renderAdvisories webIndexEnv webIndex).result.isOk
    | _ => false) = true := by decide +kernel
  cases hf : (renderAdvisories webIndexEnv webIndex).file (htmlFile "packages" "index".toList) with
  | none => rw [hf] at h; cases h
  | some page =>
    rw [hf] at h
    cases page with
    | sub s =>
      refine ⟨webIndexEnv, webIndex, s, ?_, hf⟩
      simp only at h
      cases ho : (renderAdvisories webIndexEnv webIndex).result with
      | ok u => rfl
      | err => rw [ho] at h; cases h
      | panic => rw [ho] at h; cases h
    | _ => cases h

/-- The hypotheses of `C70_no_dates` are met: the file of the second advisory is not in the repository. -/
example : (renderAdvisories webIndexEnv [webAdvisory "RUSTSEC-2021-0001" "index" [] [] [],
      webAdvisory "RUSTSEC-2021-0007" "foo" [] [] []]).writes = [] ∧
    ∀ d, ¬ Dated webIndexEnv (webAdvisory "RUSTSEC-2021-0007" "foo" [] [] []) d := by
  have hn : ∀ d, ¬ Dated webIndexEnv (webAdvisory "RUSTSEC-2021-0007" "foo" [] [] []) d := by
    intro d hd
    have h : (Data.new webIndexEnv (webAdvisory "RUSTSEC-2021-0007" "foo" [] [] [])).isOk = false := by decide +kernel
    rw [(dated_iff _ _ _).mpr hd] at h
    cases h
  exact ⟨(C70_no_dates _ _ _ (List.mem_cons_of_mem _ List.mem_cons_self) hn).1, hn⟩

end Verif.Props
