import Verif.Model.SarifJson
import Verif.Spec.SarifJson
import Verif.Props.ReportJsonText
import Verif.Props.CvssV2Score
import Verif.Props.CvssV3Score
import Verif.Props.CvssV4Score

/-!
# C81: the SARIF document
-/

namespace Verif.Props

open Verif.Semver Verif.Osv Verif.Lock Verif.Adv Verif.Rep Verif.RepJson Verif.Audit Verif.SarifJson Verif.Spec

/-! ### The scores -/

theorem fmt1_tenths {F : Cvss.Fp} (hF : F.Ok) {k : ℤ} (h0 : 0 ≤ k) (h1 : k ≤ 100) :
    fmt1 (F.fl ((k : ℚ) / 10)) = tenthsText k := by
  have hn := abs_le.mp (Cvss.fl_tenth_near hF (k := k) (by rw [abs_of_nonneg h0]; omega))
  have hfl : ⌊F.fl ((k : ℚ) / 10) * 10 + 1 / 2⌋ = k := by
    rw [Int.floor_eq_iff]
    constructor <;> linarith [hn.1, hn.2]
  unfold fmt1 tenthsText
  simp only [hfl]
  congr 2
  · omega
  · congr 1; omega

theorem cvss_fromStr_v40 {s : Str} {v : Cvss.V4.Vector} (h : Cvss.Cvss.fromStr s = .ok (.v40 v)) :
    Cvss.V4.Vector.fromStr s = .ok v := by
  have key : ∀ {α : Type} {g : α → Cvss.Cvss} {o : Outcome α}, Cvss.Outcome.map g o = .ok (.v40 v) →
      ∃ x, o = .ok x ∧ g x = .v40 v := by
    intro α g o h
    cases o with
    | ok x => exact ⟨x, rfl, Outcome.ok.inj h⟩
    | err => cases h
    | panic => cases h
  unfold Cvss.Cvss.fromStr at h
  split at h
  · cases h
  · split at h
    · cases h
    · split at h
      · obtain ⟨x, -, hx⟩ := key h; cases hx
      · split_ifs at h
        · obtain ⟨x, -, hx⟩ := key h; cases hx
        · obtain ⟨x, -, hx⟩ := key h; cases hx
        · obtain ⟨x, h, hx⟩ := key h; cases hx; exact h

/-- A score that is computed at all is written as the number of the CVSS documents. -/
theorem scoreText_spec {F : Cvss.Fp} (hF : F.Ok) (c : Cvss.Cvss) (t : Option Str) (h : scoreText F (some c) = .ok t) :
    ∃ k, cvssTenths c = some k ∧ 0 ≤ k ∧ k ≤ 100 ∧ t = some (tenthsText k) := by
  cases c with
  | v20 v =>
    obtain ⟨⟨h0, h1⟩, -⟩ := Cvss.v2_range v
    refine ⟨_, rfl, h0, h1, ?_⟩
    simp only [scoreText, Cvss.Cvss.score, (Cvss.C60_v2 F hF v).1, fmt1_tenths hF h0 h1] at h
    exact (Outcome.ok.inj h).symm
  | v30 b =>
    obtain ⟨h0, h1⟩ := Cvss.v3Tenths_range b.metrics
    refine ⟨_, rfl, h0, h1, ?_⟩
    simp only [scoreText, Cvss.Cvss.score, Cvss.C60_v3 F hF b, fmt1_tenths hF h0 h1] at h
    exact (Outcome.ok.inj h).symm
  | v31 b =>
    obtain ⟨h0, h1⟩ := Cvss.v3Tenths_range b.metrics
    refine ⟨_, rfl, h0, h1, ?_⟩
    simp only [scoreText, Cvss.Cvss.score, Cvss.C60_v3 F hF b, fmt1_tenths hF h0 h1] at h
    exact (Outcome.ok.inj h).symm
  | v40 v =>
    by_cases hm : ∀ m ∈ Cvss.Spec.v4Mandatory, v.metrics m ≠ none
    · obtain ⟨e, he, hs, h0, h1, -⟩ := Cvss.V4.v4_full hF v hm
      refine ⟨e.tenths, by show Option.map _ _ = _; rw [he]; rfl, h0, h1, ?_⟩
      simp only [scoreText, Cvss.Cvss.score, hs, fmt1_tenths hF h0 h1] at h
      exact (Outcome.ok.inj h).symm
    · push Not at hm
      have := (Cvss.C38_panic_iff F hF v).mpr hm
      simp only [scoreText, Cvss.Cvss.score, this] at h
      cases h

/-- A vector that was read has a score. -/
theorem scoreText_total {F : Cvss.Fp} (hF : F.Ok) (c : Option Cvss.Cvss)
    (hc : ∀ v, c = some v → FromText Cvss.Cvss.fromStr v) : ∃ t, scoreText F c = .ok t := by
  cases c with
  | none => exact ⟨none, rfl⟩
  | some c =>
    obtain ⟨s, hs⟩ := hc c rfl
    cases c with
    | v20 v => exact ⟨_, rfl⟩
    | v30 b => exact ⟨_, rfl⟩
    | v31 b => exact ⟨_, rfl⟩
    | v40 v =>
      obtain ⟨x, -, hx, -⟩ := Cvss.C38_parsed F hF s v (cvss_fromStr_v40 hs)
      exact ⟨some (fmt1 x), by simp only [scoreText, Cvss.Cvss.score, hx]⟩

/-! ### The loops -/

/-- One turn of a loop for every entry. -/
def pushEach : List (Str × Outcome FullRule × SarifResult) → Acc → Outcome Acc
  | [], s => .ok s
  | t :: ts, s => do
    let s ← s.push t.1 t.2.1 t.2.2
    pushEach ts s

theorem pushEach_append (ts us : List (Str × Outcome FullRule × SarifResult)) (s : Acc) :
    pushEach (ts ++ us) s = (do let s ← pushEach ts s; pushEach us s) := by
  induction ts generalizing s with
  | nil => rfl
  | cons t ts ih =>
    show (s.push t.1 t.2.1 t.2.2).bind _ = Outcome.bind (Outcome.bind _ _) _
    cases s.push t.1 t.2.1 t.2.2 with
    | ok s => exact ih s
    | err => rfl
    | panic => rfl

/-- The entry of a finding. -/
def sarifEntry (L : ReportLib) (F : Cvss.Fp) (path : Str) : SarifFinding → Str × Outcome FullRule × SarifResult
  | .vulnerability v => (v.advisory.id.string, FullRule.ofAdvisory F v.advisory true, resultOfVulnerability L v path)
  | .warning w => (ruleIdOf w.kind w, ruleOfWarning F w.kind w, resultOfWarning L w path)

theorem pushVulnerabilities_eq (L : ReportLib) (F : Cvss.Fp) (path : Str) (vs : List FullVulnerability) (s : Acc) :
    pushVulnerabilities L F path vs s = pushEach ((vs.map SarifFinding.vulnerability).map (sarifEntry L F path)) s := by
  induction vs generalizing s with
  | nil => rfl
  | cons v vs ih =>
    show Outcome.bind _ _ = Outcome.bind _ _
    congr 1
    funext s
    exact ih s

theorem pushWarnings_eq (L : ReportLib) (F : Cvss.Fp) (path : Str) (k : WarningKind) (ws : List FullWarning)
    (hk : ∀ w ∈ ws, w.kind = k) (s : Acc) :
    pushWarnings L F path k ws s = pushEach ((ws.map SarifFinding.warning).map (sarifEntry L F path)) s := by
  induction ws generalizing s with
  | nil => rfl
  | cons w ws ih =>
    have hw := hk w (by simp)
    subst hw
    show Outcome.bind _ _ = Outcome.bind _ _
    congr 1
    funext s
    exact ih (fun w hw => hk w (by simp [hw])) s

theorem pushKinds_eq (L : ReportLib) (F : Cvss.Fp) (path : Str) (es : List (WarningKind × List FullWarning))
    (hk : ∀ e ∈ es, ∀ w ∈ e.2, w.kind = e.1) (s : Acc) :
    pushKinds L F path es s =
      pushEach (((es.flatMap Prod.snd).map SarifFinding.warning).map (sarifEntry L F path)) s := by
  induction es generalizing s with
  | nil => rfl
  | cons e es ih =>
    rw [List.flatMap_cons, List.map_append, List.map_append, pushEach_append,
      ← pushWarnings_eq L F path e.1 e.2 (hk e (by simp))]
    show Outcome.bind _ _ = Outcome.bind _ _
    congr 1
    funext s
    exact ih (fun e he => hk e (by simp [he])) s

theorem fromReport_eq (L : ReportLib) (F : Cvss.Fp) (r : FullReport L.Time) (path : Str)
    (hfiled : ∀ e ∈ r.warnings, ∀ w ∈ e.2, w.kind = e.1) :
    fromReport L F r path = (do
      let s ← pushEach ((SarifFinding.all r).map (sarifEntry L F path)) {}
      .ok (s.rules, s.results)) := by
  unfold fromReport SarifFinding.all
  rw [List.map_append, pushEach_append, ← pushVulnerabilities_eq]
  simp only [bind]
  cases pushVulnerabilities L F path r.vulnerabilities.list {} with
  | ok s => simp only [Outcome.bind]; rw [pushKinds_eq L F path r.warnings hfiled]
  | err => rfl
  | panic => rfl

theorem entry_rule (L : ReportLib) (F : Cvss.Fp) (path : Str) (f : SarifFinding) : (sarifEntry L F path f).1 = f.rule := by
  cases f with
  | vulnerability v => rfl
  | warning w =>
    unfold sarifEntry ruleIdOf SarifFinding.rule
    dsimp only
    cases w.advisory with
    | some m => rfl
    | none => cases w.kind <;> decide

/-- The loop keeps every result, and the rule of the first finding with each name. -/
theorem pushEach_spec (L : ReportLib) (F : Cvss.Fp) (path : Str) (fs : List SarifFinding) (s s' : Acc)
    (h : pushEach (fs.map (sarifEntry L F path)) s = .ok s') :
    s'.results = s.results ++ fs.map (fun f => (sarifEntry L F path f).2.2) ∧
    ∃ (firsts : List SarifFinding) (rs : List FullRule), s'.rules = s.rules ++ rs ∧
      List.Forall₂ (fun f r => (sarifEntry L F path f).2.1 = .ok r) firsts rs ∧
      firsts.Sublist fs ∧ (firsts.map SarifFinding.rule).Nodup ∧ (∀ f ∈ firsts, f.rule ∉ s.seen) ∧
      (∀ f ∈ fs, f.rule ∈ s.seen ∨ ∃ g ∈ firsts, g.rule = f.rule) ∧
      (∀ g ∈ firsts, fs.find? (fun f => f.rule == g.rule) = some g) := by
  induction fs generalizing s with
  | nil =>
    cases h
    exact ⟨by simp, [], [], by simp, .nil, .slnil, by simp, by simp, by simp, by simp⟩
  | cons f fs ih =>
    obtain ⟨s1, h1, h2⟩ := bindOk (show Outcome.bind _ _ = _ from h)
    unfold Acc.push at h1
    rw [entry_rule] at h1
    by_cases hc : s.seen.contains f.rule = true
    · rw [if_pos hc] at h1
      cases h1
      obtain ⟨hr, firsts, rs, i1, i2, i3, i4, i5, i6, i7⟩ := ih _ h2
      have hmem : f.rule ∈ s.seen := by simpa using hc
      refine ⟨by rw [hr]; simp, firsts, rs, i1, i2, i3.cons f, i4, i5, ?_, ?_⟩
      · intro g hg
        rcases List.mem_cons.mp hg with rfl | hg
        · exact Or.inl hmem
        · exact i6 g hg
      · intro g hg
        rw [List.find?_cons_of_neg, i7 g hg]
        intro e
        have e : f.rule = g.rule := by simpa using e
        exact i5 g hg (e ▸ hmem)
    · rw [if_neg hc] at h1
      have hmem : f.rule ∉ s.seen := by simpa using hc
      cases hrule : (sarifEntry L F path f).2.1 with
      | err => rw [hrule] at h1; cases h1
      | panic => rw [hrule] at h1; cases h1
      | ok r =>
        rw [hrule] at h1
        cases h1
        obtain ⟨hr, firsts, rs, i1, i2, i3, i4, i5, i6, i7⟩ := ih _ h2
        refine ⟨by rw [hr]; simp, f :: firsts, r :: rs, by rw [i1]; simp, .cons hrule i2, i3.cons_cons f, ?_, ?_, ?_, ?_⟩
        · rw [List.map_cons, List.nodup_cons]
          refine ⟨fun hm => ?_, i4⟩
          obtain ⟨g, hg, e⟩ := List.mem_map.mp hm
          exact i5 g hg (by simp [e])
        · intro g hg
          rcases List.mem_cons.mp hg with rfl | hg
          · exact hmem
          · exact fun hs => i5 g hg (by simp [hs])
        · intro g hg
          rcases List.mem_cons.mp hg with rfl | hg
          · exact Or.inr ⟨g, by simp, rfl⟩
          · rcases i6 g hg with h | ⟨x, hx, e⟩
            · rcases List.mem_cons.mp h with h | h
              · exact Or.inr ⟨f, by simp, h.symm⟩
              · exact Or.inl h
            · exact Or.inr ⟨x, by simp [hx], e⟩
        · intro g hg
          rcases List.mem_cons.mp hg with rfl | hg
          · rw [List.find?_cons_of_pos]; simp
          · rw [List.find?_cons_of_neg, i7 g hg]
            intro e
            have e : f.rule = g.rule := by simpa using e
            exact i5 g hg (by simp [e])

theorem pushEach_total (L : ReportLib) (F : Cvss.Fp) (path : Str) (fs : List SarifFinding)
    (hok : ∀ f ∈ fs, ∃ r, (sarifEntry L F path f).2.1 = .ok r) (s : Acc) :
    ∃ s', pushEach (fs.map (sarifEntry L F path)) s = .ok s' := by
  induction fs generalizing s with
  | nil => exact ⟨s, rfl⟩
  | cons f fs ih =>
    obtain ⟨r, hr⟩ := hok f (by simp)
    have : ∃ s1, s.push (sarifEntry L F path f).1 (sarifEntry L F path f).2.1 (sarifEntry L F path f).2.2 = .ok s1 := by
      unfold Acc.push
      rw [hr]
      split
      · exact ⟨_, rfl⟩
      · exact ⟨_, rfl⟩
    obtain ⟨s1, h1⟩ := this
    obtain ⟨s', h2⟩ := ih (fun f hf => hok f (by simp [hf])) s1
    refine ⟨s', ?_⟩
    show Outcome.bind _ _ = _
    rw [h1]
    exact h2

/-! ### Places -/

theorem jlevel_eq (L : ReportLib) (F : Cvss.Fp) (path : Str) (f : SarifFinding) :
    jlevel (sarifEntry L F path f).2.2.level = .str f.level := by
  cases f <;> rfl

theorem shows_result {L : ReportLib} {F : Cvss.Fp} {path : Str} {f : SarifFinding} {place : List JsonStep} {j : Json}
    (h : jsonAt place j = some (jresult (sarifEntry L F path f).2.2)) : ShowsResult L place j path f := by
  have hrule : (sarifEntry L F path f).2.2.ruleId = f.rule := by
    rw [← entry_rule L F path f]
    cases f <;> rfl
  have huri : (sarifEntry L F path f).2.2.uri = path := by cases f <;> rfl
  have hfp : (sarifEntry L F path f).2.2.fingerprint = f.fingerprint L := by
    unfold SarifFinding.fingerprint
    cases f with
    | vulnerability v => simp [sarifEntry, resultOfVulnerability, joinC, SarifFinding.rule, SarifFinding.package]
    | warning w =>
      rw [← hrule]
      simp [sarifEntry, resultOfWarning, joinC, SarifFinding.package]
  have hmsg : (sarifEntry L F path f).2.2.message = f.message L := by
    cases f with
    | vulnerability v => rfl
    | warning w =>
      obtain ⟨kind, p, a, _, _⟩ := w
      cases a with
      | some m => simp only [sarifEntry, resultOfWarning, warningText, SarifFinding.message, List.append_assoc]
      | none => simp only [sarifEntry, resultOfWarning, warningText, SarifFinding.message]
  constructor
  all_goals
    rw [jsonAt_append, h, Option.bind_some]
    unfold jresult
    find_place
  · rw [hrule]
  · rw [hmsg]
  · rw [jlevel_eq]
  · rw [jsonAt_arr, List.getElem?_cons_zero, Option.bind_some]
    unfold jlocation
    find_place
    rw [huri]
  · rw [jsonAt_arr, List.getElem?_cons_zero, Option.bind_some]
    unfold jlocation
    find_place
  · rw [jsonAt_arr, List.getElem?_cons_succ, List.getElem?_nil, Option.bind_none]
  · rw [hfp]

theorem shows_rule {L : ReportLib} {F : Cvss.Fp} (hF : F.Ok) {path : Str} {f : SarifFinding} {r : FullRule}
    (hr : (sarifEntry L F path f).2.1 = .ok r)
    (hn : ∀ w, f = .warning w → w.advisory = none → w.kind ≠ .notice)
    {place : List JsonStep} {j : Json} (h : jsonAt place j = some (jrule r)) : ShowsRule place j f := by
  -- what is known of the rule
  have key : r.id = f.rule ∧ r.name = f.rule ∧ r.shortDescription = f.short ∧ jlevel r.level = .str f.level ∧
      r.fullDescription = (f.advisory.bind fun m => fullText m.description) ∧
      r.help = (f.advisory.bind fun m => m.url.map (helpText f.rule)) ∧
      r.vulnerability = (match f with | .vulnerability _ => true | .warning _ => false) ∧
      r.veryHigh = f.advisory.isSome ∧ r.problemSeverity = (match f with | .vulnerability _ => false | .warning _ => true) ∧
      (∀ m, f.advisory = some m → scoreText F m.cvss = .ok r.securitySeverity) ∧
      (f.advisory = none → r.securitySeverity = none) := by
    have hadv : ∀ m b, FullRule.ofAdvisory F m b = .ok r → ∃ s, scoreText F m.cvss = .ok s ∧ r =
        { id := m.id.string, name := m.id.string, shortDescription := m.title, fullDescription := fullText m.description,
          level := if b then .error else .warning, help := m.url.map (helpText m.id.string),
          vulnerability := b, veryHigh := true, problemSeverity := !b, securitySeverity := s } := by
      intro m b h
      unfold FullRule.ofAdvisory at h
      obtain ⟨s, hs, h⟩ := bindOk h
      exact ⟨s, hs, (Outcome.ok.inj h).symm⟩
    cases f with
    | vulnerability v =>
      obtain ⟨s, hs, rfl⟩ := hadv v.advisory true hr
      exact ⟨rfl, rfl, rfl, rfl, rfl, rfl, rfl, rfl, rfl, (fun m hm => by cases hm; exact hs), (fun hm => by cases hm)⟩
    | warning w =>
      obtain ⟨kind, p, a, af, vs⟩ := w
      cases a with
      | some m =>
        obtain ⟨s, hs, rfl⟩ := hadv m false hr
        exact ⟨rfl, rfl, rfl, rfl, rfl, rfl, rfl, rfl, rfl, (fun m hm => by cases hm; exact hs), (fun hm => by cases hm)⟩
      | none =>
        cases hr
        have := hn _ rfl rfl
        dsimp only at this
        refine ⟨?_, ?_, ?_, rfl, rfl, rfl, rfl, rfl, rfl, (fun m hm => by cases hm), fun _ => rfl⟩
        · cases kind <;> first | rfl | decide | exact absurd rfl this
        · cases kind <;> first | rfl | decide | exact absurd rfl this
        · cases kind <;> rfl
  obtain ⟨k1, k2, k3, k4, k5, k6, k7, k8, k9, k10, k11⟩ := key
  have hfull : ∀ {d : Str}, fullText d = if d = [] then none else some d := by
    intro d; unfold fullText; cases d <;> rfl
  constructor
  case id =>
    rw [jsonAt_append, h, Option.bind_some]; unfold jrule
    simp only [List.cons_append]; find_place; rw [k1]
  case name =>
    rw [jsonAt_append, h, Option.bind_some]; unfold jrule
    simp only [List.cons_append]; find_place; rw [k2]
  case short =>
    rw [jsonAt_append, h, Option.bind_some]; unfold jrule
    simp only [List.cons_append]; find_place; unfold jmessage
    simp only [List.cons_append]; find_place; rw [k3]
  case level =>
    rw [jsonAt_append, h, Option.bind_some]; unfold jrule
    cases r.fullDescription <;> simp only [List.cons_append, Option.map_none, Option.map_some, memberOpt, List.nil_append]
      <;> find_place <;> rw [k4]
  case full =>
    intro m hm hd
    rw [jsonAt_append, h, Option.bind_some]; unfold jrule
    rw [k5, hm, Option.bind_some, hfull, if_neg hd]
    simp only [List.cons_append, Option.map_some, memberOpt, List.nil_append]
    find_place; unfold jmessage; simp only [List.cons_append]; find_place
  case no_full =>
    intro hd
    have : r.fullDescription = none := by
      rw [k5]
      cases hm : f.advisory with
      | none => rfl
      | some m => rw [Option.bind_some, hfull, if_pos (hd m hm)]
    rw [jsonAt_append, h, Option.bind_some]; unfold jrule
    rw [this]
    cases r.help <;> simp only [List.cons_append, Option.map_none, Option.map_some, memberOpt, List.nil_append]
      <;> find_place <;> rfl
  case help =>
    intro m u hm hu
    have hh : r.help = some (helpText f.rule u) := by rw [k6, hm, Option.bind_some, hu]; rfl
    rw [jsonAt_append, jsonAt_append, h, Option.bind_some, Option.bind_some]; unfold jrule
    rw [hh]
    cases r.fullDescription <;> simp only [List.cons_append, Option.map_none, Option.map_some, memberOpt, List.nil_append]
      <;> refine ⟨?_, ?_⟩ <;> find_place <;> unfold jmessage
      <;> simp only [List.cons_append, Option.map_some, memberOpt, List.nil_append] <;> find_place <;> rfl
  case no_help =>
    intro hu
    have hh : r.help = none := by
      rw [k6]
      cases hm : f.advisory with
      | none => rfl
      | some m => rw [Option.bind_some, hu m hm]; rfl
    rw [jsonAt_append, h, Option.bind_some]; unfold jrule
    rw [hh]
    cases r.fullDescription <;> simp only [List.cons_append, Option.map_none, Option.map_some, memberOpt, List.nil_append]
      <;> find_place <;> rfl
  all_goals
    have hprop : jsonAt (place ++ [.key "properties"]) j = some (jproperties r) := by
      rw [jsonAt_append, h, Option.bind_some]; unfold jrule
      cases r.fullDescription <;> cases r.help <;>
        simp only [List.cons_append, Option.map_none, Option.map_some, memberOpt, List.nil_append] <;> find_place
  case tags =>
    rw [List.append_cons, jsonAt_append, hprop, Option.bind_some]; unfold jproperties
    simp only [List.cons_append]; find_place
    rw [k7]; cases f <;> rfl
  case precision =>
    rw [List.append_cons, jsonAt_append, hprop, Option.bind_some]; unfold jproperties
    simp only [List.cons_append]; find_place
    rw [k8]
  case problem =>
    rw [List.append_cons, jsonAt_append, hprop, Option.bind_some]; unfold jproperties
    rw [k9]
    cases f with
    | vulnerability v =>
      cases r.securitySeverity <;> simp only [List.cons_append, Option.map_none, Option.map_some, memberOpt,
        List.nil_append, Bool.false_eq_true, if_false] <;> find_place <;> rfl
    | warning w =>
      simp only [List.cons_append, memberOpt, List.nil_append, if_true]
      find_place
  case score =>
    intro m c hm hc
    have hs := k10 m hm
    rw [hc] at hs
    obtain ⟨k, h1, h2, h3, h4⟩ := scoreText_spec hF c _ hs
    refine ⟨k, h1, h2, h3, ?_⟩
    rw [List.append_cons, jsonAt_append, hprop, Option.bind_some]; unfold jproperties
    rw [h4]
    cases r.problemSeverity <;> simp only [List.cons_append, Option.map_some, memberOpt,
        List.nil_append, Bool.false_eq_true, if_false, if_true] <;> find_place
  case no_score =>
    intro hc
    have hs : r.securitySeverity = none := by
      cases hm : f.advisory with
      | none => exact k11 hm
      | some m =>
        have := k10 m hm
        rw [hc m hm] at this
        exact (Outcome.ok.inj this).symm
    rw [List.append_cons, jsonAt_append, hprop, Option.bind_some]; unfold jproperties
    rw [hs]
    cases r.problemSeverity <;> simp only [List.cons_append, Option.map_none, memberOpt,
        List.nil_append, Bool.false_eq_true, if_false, if_true] <;> find_place <;> rfl

/-! ### C81 -/

/-- **C81.**  What is printed is one line of JSON, and the document shows every vulnerability and every warning of the
report.  Needed: the report files warnings under their kinds, and every notice comes from an advisory. -/
theorem C81_document (L : ReportLib) (F : Cvss.Fp) (hF : F.Ok) (version : Str) (r : FullReport L.Time) (path : Option Str)
    (text : Str) (h : printSarifReport L F version r path = .ok text)
    (hfiled : ∀ e ∈ r.warnings, ∀ w ∈ e.2, w.kind = e.1)
    (hnotice : ∀ e ∈ r.warnings, ∀ w ∈ e.2, w.advisory = none → w.kind ≠ .notice) :
    ∃ line j, text = line ++ ['\n'] ∧ '\n' ∉ line ∧ readJson text = some j ∧
      ShowsFindings L version (path.getD "Cargo.lock".toList) (SarifFinding.all r) j := by
  unfold printSarifReport at h
  obtain ⟨run, hrun, h⟩ := bindOk h
  cases h
  refine ⟨_, jlog version run, rfl, visible_no_newline (print_visible _), readJson_line _, ?_⟩
  rw [fromReport_eq L F r _ hfiled] at hrun
  obtain ⟨s, hs, hrun⟩ := bindOk hrun
  cases hrun
  obtain ⟨hres, firsts, rs, i1, i2, i3, i4, -, i6, i7⟩ := pushEach_spec L F _ (SarifFinding.all r) _ _ hs
  have hres : s.results = (SarifFinding.all r).map (fun f => (sarifEntry L F (path.getD "Cargo.lock".toList) f).2.2) := by
    rw [hres]; rfl
  have hrules : s.rules = rs := by rw [i1]; rfl
  have hrun : ∀ p, jsonAt (.key "runs" :: .idx 0 :: p) (jlog version (s.rules, s.results)) =
      jsonAt p (.obj [("tool".toList, jtool version s.rules), ("results".toList, .arr (s.results.map jresult))]) := by
    intro p
    unfold jlog
    find_place
    rw [jsonAt_arr]
    rfl
  have hnot : ∀ g ∈ firsts, ∀ w, g = SarifFinding.warning w → w.advisory = none → w.kind ≠ .notice := by
    rintro g hg w rfl ha
    have := i3.subset hg
    unfold SarifFinding.all at this
    rcases List.mem_append.mp this with hm | hm
    · obtain ⟨v, -, e⟩ := List.mem_map.mp hm; cases e
    · obtain ⟨w', hw', e⟩ := List.mem_map.mp hm
      cases e
      obtain ⟨e, he, hw⟩ := List.mem_flatMap.mp hw'
      exact hnotice e he w hw ha
  constructor
  case schema => unfold jlog; find_place
  case sarif => unfold jlog; find_place
  case one_run => unfold jlog; find_place; rw [jsonAt_arr]; rfl
  case tool => rw [hrun]; find_place; unfold jtool; find_place
  case tool_version => rw [hrun]; find_place; unfold jtool; find_place
  case tool_semver => rw [hrun]; find_place; unfold jtool; find_place
  case results =>
    refine ⟨_, by rw [hrun]; find_place, ?_⟩
    rw [hres]; simp
  case result =>
    intro i f hf
    apply shows_result (F := F)
    rw [hrun]
    find_place
    rw [jsonAt_arr, hres, List.getElem?_map, List.getElem?_map, hf]
    rfl
  case rules =>
    refine ⟨firsts, i3, i4, fun f hf => ?_, i7, ⟨_, by rw [hrun]; find_place; unfold jtool; find_place, ?_⟩, ?_⟩
    · rcases i6 f hf with h | h
      · cases h
      · exact h
    · rw [List.length_map, hrules, i2.length_eq]
    · intro i g hg
      have hgm : g ∈ firsts := List.mem_of_getElem? hg
      obtain ⟨x, hx, hgx⟩ : ∃ x, rs[i]? = some x ∧ (sarifEntry L F (path.getD "Cargo.lock".toList) g).2.1 = .ok x := by
        clear i1 i3 i4 i6 i7 hrules hrun hnot hgm
        induction i2 generalizing i with
        | nil => cases hg
        | cons hab _ ih =>
          cases i with
          | zero => cases hg; exact ⟨_, rfl, hab⟩
          | succ i => exact ih i hg
      refine shows_rule (L := L) (path := path.getD "Cargo.lock".toList) hF hgx (hnot g hgm) ?_
      rw [hrun]
      find_place
      unfold jtool
      find_place
      rw [jsonAt_arr, List.getElem?_map, hrules, hx]
      rfl

/-- **C81, always.**  If the CVSS vectors of the report were read from texts, as they are in a database, the document is
always printed. -/
theorem C81_prints (L : ReportLib) (F : Cvss.Fp) (hF : F.Ok) (version : Str) (r : FullReport L.Time) (path : Option Str)
    (hfiled : ∀ e ∈ r.warnings, ∀ w ∈ e.2, w.kind = e.1)
    (hcvss : ∀ f ∈ SarifFinding.all r, ∀ m, f.advisory = some m → ∀ c, m.cvss = some c → FromText Cvss.Cvss.fromStr c) :
    ∃ text, printSarifReport L F version r path = .ok text := by
  have hadv : ∀ m b, (∀ c, m.cvss = some c → FromText Cvss.Cvss.fromStr c) → ∃ r, FullRule.ofAdvisory F m b = .ok r := by
    intro m b hm
    obtain ⟨t, ht⟩ := scoreText_total hF m.cvss hm
    unfold FullRule.ofAdvisory
    rw [ht]
    exact ⟨_, rfl⟩
  have hok : ∀ f ∈ SarifFinding.all r, ∃ x, (sarifEntry L F (path.getD "Cargo.lock".toList) f).2.1 = .ok x := by
    intro f hf
    have := hcvss f hf
    cases f with
    | vulnerability v => exact hadv _ _ (this _ rfl)
    | warning w =>
      obtain ⟨kind, p, a, af, vs⟩ := w
      cases a with
      | some m => exact hadv _ _ (this _ rfl)
      | none => exact ⟨_, rfl⟩
  obtain ⟨s, hs⟩ := pushEach_total L F _ _ hok {}
  unfold printSarifReport
  rw [fromReport_eq L F r _ hfiled, hs]
  exact ⟨_, rfl⟩

/-- **C81, fingerprints.**  Two results have the same fingerprint only if they are about the same rule and the same
version of the same package, provided the names of rules and packages have no colon. -/
theorem C81_fingerprint (L : ReportLib) (f g : SarifFinding)
    (hf : ':' ∉ f.rule ∧ ':' ∉ f.package.name) (hg : ':' ∉ g.rule ∧ ':' ∉ g.package.name)
    (h : f.fingerprint L = g.fingerprint L) :
    f.rule = g.rule ∧ f.package.name = g.package.name ∧
      L.showVersion f.package.version = L.showVersion g.package.version := by
  have one : ∀ (a b x y : Str), ':' ∉ a → ':' ∉ b → a ++ ':' :: x = b ++ ':' :: y → a = b ∧ x = y := by
    intro a
    induction a with
    | nil =>
      intro b x y _ hb e
      cases b with
      | nil => exact ⟨rfl, (List.cons.inj e).2⟩
      | cons c b => exact absurd (by rw [← (List.cons.inj e).1]; simp) hb
    | cons c a ih =>
      intro b x y ha hb e
      cases b with
      | nil => exact absurd (by rw [(List.cons.inj e).1]; simp) ha
      | cons d b =>
        obtain ⟨e1, e2⟩ := List.cons.inj e
        subst e1
        obtain ⟨h1, h2⟩ := ih b x y (fun h => ha (by simp [h])) (fun h => hb (by simp [h])) e2
        exact ⟨by rw [h1], h2⟩
  unfold SarifFinding.fingerprint at h
  simp only [joinC] at h
  obtain ⟨h1, h2⟩ := one _ _ _ _ hf.1 hg.1 h
  obtain ⟨h3, h4⟩ := one _ _ _ _ hf.2 hg.2 h2
  exact ⟨h1, h3, h4⟩

end Verif.Props
