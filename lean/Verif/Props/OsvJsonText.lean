import Verif.Props.OsvJsonRead
import Verif.Props.ReportJsonText
import Verif.Props.OsvExportAll

/-!
# C82: the text of the exported files
-/

namespace Verif.Props

open Verif Verif.Semver Verif.Osv Verif.Lock Verif.Adv Verif.RepJson Verif.Export Verif.OsvJson Verif.Spec Verif.Sync
open Verif.Git

/-- What the parser returns for an advisory, apart from the source of the package. -/
theorem advisory_parts {L : ReportLib} {text : Str} {a : AdvisoryFile} (h : AdvisoryFile.fromStr L.adv text = .ok a) :
    FromText Id.fromStr a.metadata.id ∧ (∀ i ∈ a.metadata.aliases, FromText Id.fromStr i) ∧
    (∀ i ∈ a.metadata.related, FromText Id.fromStr i) ∧ (∀ c ∈ a.metadata.categories, ∃ s, Category.fromStr s = c) ∧
    (∀ c, a.metadata.cvss = some c → FromText Cvss.Cvss.fromStr c) ∧
    (∀ i, a.metadata.informational = some i → ∃ s, Informational.fromStr s = i) ∧
    (∀ u ∈ a.metadata.references, ∃ s, Url.parse L.adv.url s = some u) ∧
    (∀ u, a.metadata.url = some u → ∃ s, Url.parse L.adv.url s = some u) ∧
    ∀ f, a.affected = some f → ∀ e ∈ f.functions, FromText FunctionPath.fromStr e.1 := by
  obtain ⟨parts, front, t, m, v, -, -, -, -, -, hm, -, -, -, -, ha, -, -, -⟩ := ((C68_parsed_iff _ _ _).mp h).contents
  refine ⟨let ⟨s, _, h⟩ := hm.id; ⟨s, h⟩, mem_fieldList hm.aliases, mem_fieldList hm.related, mem_fieldList hm.categories,
    mem_fieldOpt hm.cvss, mem_fieldOpt hm.informational, mem_fieldList hm.references, mem_fieldOpt hm.url, ?_⟩
  intro f hf
  rcases ha with ⟨-, ha⟩ | ⟨ta, af, -, ha, hfn⟩
  · rw [ha] at hf; cases hf
  · rw [ha] at hf
    cases hf
    intro e he
    rcases hfn.functions with ⟨-, h0⟩ | ⟨m, -, hm⟩
    · rw [h0] at he; cases he
    · obtain ⟨x, -, h1, -⟩ := forall2_right hm e he
      exact ⟨_, h1⟩

theorem severity_of_cvss {c : Cvss.Cvss} (h : FromText Cvss.Cvss.fromStr c) : SeverityRead (OsvSeverity.ofCvss c) := by
  obtain ⟨s, hs⟩ := h
  have hw := (Cvss.C59_parsed_well_formed s c hs).1
  cases c with
  | v20 v => exact ⟨_, Cvss.C34_round_trip v hw⟩
  | v30 b => exact ⟨_, Cvss.C33_round_trip b (by rw [hw.1]; omega)⟩
  | v31 b => exact ⟨_, Cvss.C33_round_trip b (Nat.le_of_eq hw.1)⟩
  | v40 v => exact ⟨_, Cvss.C35_round_trip v hw.1 hw.2⟩

theorem parseUrl_from {U : UrlLib} {s : Str} {u : Url} (h : parseUrl U s = .ok u) : ∃ s, Url.parse U s = some u := by
  unfold parseUrl at h
  split at h
  · cases h; exact ⟨s, by assumption⟩
  · cases h

/-- What the exporter returns consists of parts that were read from text. -/
theorem exported_read {L : ReportLib} {text : Str} {a : AdvisoryFile} {cal : Int → Int × Nat × Nat} {m : ModTimes} {path : Str}
    {o : OsvAdvisory} (ha : AdvisoryFile.fromStr L.adv text = .ok a) (ho : fromRustsec cal L.adv.url a m path = .ok o) :
    OsvFileRead L (exportedFile L o) := by
  obtain ⟨p1, p2, p3, p4, p5, p6, p7, p8, p9⟩ := advisory_parts ha
  obtain ⟨package, page, time, modified, published, events, withdrawn, h1, h2, -, -, -, -, -, rfl⟩ := fromRustsec_inv ho
  refine ⟨(fun v hv => by cases hv), p1, p2, p3, ?_, ?_, ?_⟩
  · intro s hs
    simp only [exportedFile, Option.mem_toList, Option.mem_def, Option.map_eq_some_iff] at hs
    obtain ⟨c, hc, rfl⟩ := hs
    exact severity_of_cvss (p5 c hc)
  · intro f hf
    simp only [exportedFile, List.map_cons, List.map_nil, List.mem_cons, List.not_mem_nil, or_false] at hf
    subst hf
    refine ⟨?_, p4, p5, p6⟩
    rintro e he
    cases he
    refine ⟨?_, (fun l hl => by cases hl)⟩
    rintro x hx p hp
    cases hx
    simp only [mem_sortDedup pathCmp_eq_iff, List.mem_map] at hp
    obtain ⟨e, he, rfl⟩ := hp
    cases hf : a.affected with
    | none => rw [hf] at he; cases he
    | some f => rw [hf] at he; exact p9 f hf e he
  · intro r hr
    simp only [exportedFile, List.mem_map] at hr
    obtain ⟨r', ⟨u, hu, rfl⟩, rfl⟩ := hr
    show ∃ s, Url.parse L.adv.url s = some u
    simp only [List.mem_append, List.mem_cons, List.not_mem_nil, or_false, Option.mem_toList, Option.mem_def] at hu
    rcases hu with ((rfl | rfl) | hu) | hu
    · exact parseUrl_from h1
    · exact parseUrl_from h2
    · exact p8 u hu
    · exact p7 u hu

/-- What `sync` uses of an exported file is what the exporter put there. -/
theorem exported_record (L : ReportLib) (o : OsvAdvisory) : (exportedFile L o).record = o.record := by
  simp [exportedFile, OsvFile.record, OsvAdvisory.record, affectedFile, List.map_map, Function.comp_def]

/-- **C82, the exported file.**  For every advisory that the exporter converts, the text of the output file is JSON; read
back it is the record that was written, with all its fields, and `sync` would get the record of the advisory. -/
theorem C82_exported {L : ReportLib} (hL : ReportLib.Lawful L) {text : Str} {a : AdvisoryFile}
    {cal : Int → Int × Nat × Nat} {m : ModTimes} {path : Str} {o : OsvAdvisory}
    (ha : AdvisoryFile.fromStr L.adv text = .ok a) (ho : fromRustsec cal L.adv.url a m path = .ok o) :
    readOsvFile L (osvText L o) = some (exportedFile L o) ∧ readOsv L (osvText L o) = some o.record := by
  have h : readOsvFile L (osvText L o) = some (exportedFile L o) := by
    unfold readOsvFile osvText
    rw [readJson_pretty, Option.bind_some, C82_round_trip hL (exported_read ha ho)]
  refine ⟨h, ?_⟩
  unfold readOsv
  rw [h, Option.map_some, exported_record]

/-- **C82, the file of a package.**  The OSV file that the web command writes for a package is a JSON array, and its
items are read as the records, in order. -/
theorem C82_list {L : ReportLib} (hL : ReportLib.Lawful L) {cal : Int → Int × Nat × Nat} {m : ModTimes}
    {os : List OsvAdvisory}
    (h : ∀ o ∈ os, ∃ text a path, AdvisoryFile.fromStr L.adv text = .ok a ∧ fromRustsec cal L.adv.url a m path = .ok o) :
    ∃ js, readJson (osvListText L os) = some (.arr js) ∧
      List.Forall₂ (fun j o => OsvFile.deserialize L j = .ok (exportedFile L o)) js os := by
  refine ⟨_, readJson_pretty _, ?_⟩
  induction os with
  | nil => exact .nil
  | cons o os ih =>
    obtain ⟨text, a, path, h1, h2⟩ := h o (by simp)
    exact .cons (C82_round_trip hL (exported_read h1 h2)) (ih fun o ho => h o (by simp [ho]))

/-! ## Places -/

theorem jsonAt_jskip_ne {α : Type} {k k' : String} {f : α → Json} {o : Option α} {p : List JsonStep} {l : List (Str × Json)}
    (h : (k.toList == k'.toList) = false) :
    jsonAt (.key k :: p) (.obj (jskip k' f o ++ l)) = jsonAt (.key k :: p) (.obj l) := by
  cases o with
  | none => rfl
  | some a => exact jsonAt_skip h

theorem jsonAt_none {p : List JsonStep} {α : Type} {f : α → Json} {l : List α} :
    jsonAt (.idx l.length :: p) (jarr f l) = none := by
  unfold jarr
  rw [jsonAt_arr, List.getElem?_map, List.getElem?_eq_none (Nat.le_refl _)]; rfl

/-- Follows a place past members that may be missing. -/
macro "find_osv" : tactic =>
  `(tactic| (repeat first | rw [jsonAt_jskip_ne (by decide)] | rw [List.cons_append, jsonAt_skip (by decide)]
                          | rw [List.cons_append, jsonAt_head] | rw [List.nil_append]
                          | rw [jsonAt_head] | rw [jsonAt_nil] | rw [jsonAt_skip (by decide)]))

/-- **C82, places.**  Every part of the record is at the place that the OSV schema names, and lists have no further items;
`withdrawn` is missing exactly if the advisory was not withdrawn. -/
theorem C82_places (L : ReportLib) {a : AdvisoryFile} {cal : Int → Int × Nat × Nat} {m : ModTimes} {path : Str}
    {o : OsvAdvisory} (ho : fromRustsec cal L.adv.url a m path = .ok o) :
    ∃ j, readJson (osvText L o) = some j ∧ ShowsOsv L j o := by
  refine ⟨_, readJson_pretty _, ?_⟩
  have hone : ∃ x, o.affected = [x] := by
    obtain ⟨package, page, time, modified, published, events, withdrawn, -, -, -, -, -, -, -, rfl⟩ := fromRustsec_inv ho
    exact ⟨_, rfl⟩
  obtain ⟨x, hx⟩ := hone
  clear ho
  have hsev : ∀ s : OsvSeverity, severityType s = (osvSeverityText s).1 ∧ s.score = (osvSeverityText s).2 := by
    intro s; cases s <;> exact ⟨rfl, rfl⟩
  have href : ∀ k : RefKind, (refKind k).name = osvReferenceType k := by intro k; cases k <;> rfl
  have haff : ∀ p, jsonAt (.key "affected" :: .idx 0 :: p) ((exportedFile L o).serialize L) =
      jsonAt p (jaffectedFile (affectedFile L x)) := by
    intro p
    unfold OsvFile.serialize
    find_osv
    rw [jsonAt_elem (x := affectedFile L x)]
    simp [exportedFile, hx]
  constructor
  case affected =>
    refine ⟨x, hx, ?_⟩
    constructor
    case ecosystem => unfold firstAffected; rw [haff]; unfold jaffectedFile; find_osv; unfold josvPackage; find_osv; rfl
    case name => unfold firstAffected; rw [haff]; unfold jaffectedFile; find_osv; unfold josvPackage; find_osv; rfl
    case purl => unfold firstAffected; rw [haff]; unfold jaffectedFile; find_osv; unfold josvPackage; find_osv; rfl
    case rangeType =>
      unfold firstAffected; rw [haff]; unfold jaffectedFile; find_osv
      show jsonAt _ (jarr jrange _) = _
      rw [jsonAt_elem (by rfl)]
      unfold jrange; find_osv; rfl
    case onlyRange =>
      unfold firstAffected; rw [haff]; unfold jaffectedFile; find_osv
      rfl
    case event =>
      intro i e he
      unfold firstAffected; rw [haff]; unfold jaffectedFile; find_osv
      show jsonAt _ (jarr jrange _) = _
      rw [jsonAt_elem (by rfl)]
      unfold jrange; find_osv
      rw [jsonAt_elem (x := eventText L e) (by rw [List.getElem?_map, he]; rfl), jsonAt_nil]
      cases e <;> rfl
    case lastEvent =>
      unfold firstAffected; rw [haff]; unfold jaffectedFile; find_osv
      show jsonAt _ (jarr jrange _) = _
      rw [jsonAt_elem (by rfl)]
      unfold jrange; find_osv
      have : x.events.length = (x.events.map (eventText L)).length := by simp
      rw [this, jsonAt_none]
    case versions => unfold firstAffected; rw [haff]; unfold jaffectedFile; find_osv; rfl
    case arch =>
      unfold firstAffected; rw [haff]; unfold jaffectedFile; find_osv
      show jsonAt _ (jecosystem _) = _
      unfold jecosystem; find_osv
      show jsonAt _ (jaffects _) = _
      unfold jaffects; find_osv; rfl
    case os =>
      unfold firstAffected; rw [haff]; unfold jaffectedFile; find_osv
      show jsonAt _ (jecosystem _) = _
      unfold jecosystem; find_osv
      show jsonAt _ (jaffects _) = _
      unfold jaffects; find_osv; rfl
    case function =>
      intro i p hp s hs
      unfold firstAffected; rw [haff]; unfold jaffectedFile; find_osv
      show jsonAt _ (jecosystem _) = _
      unfold jecosystem; find_osv
      show jsonAt _ (jaffects _) = _
      unfold jaffects; find_osv
      rw [jsonAt_elem hp, jsonAt_nil]
      unfold jpath
      rw [hs]; rfl
    case categories => unfold firstAffected; rw [haff]; unfold jaffectedFile; find_osv; unfold josvDatabase; find_osv; rfl
    case cvss =>
      unfold firstAffected; rw [haff]; unfold jaffectedFile; find_osv; unfold josvDatabase; find_osv
      unfold affectedFile jopt
      cases x.cvss <;> rfl
    case informational =>
      unfold firstAffected; rw [haff]; unfold jaffectedFile; find_osv; unfold josvDatabase; find_osv
      unfold affectedFile jopt
      cases x.informational <;> rfl
  case onlyAffected =>
    unfold OsvFile.serialize
    find_osv
    unfold exportedFile
    rw [hx]; rfl
  case withdrawn =>
    unfold OsvFile.serialize
    find_osv
    unfold exportedFile
    cases o.withdrawn with
    | none => dsimp only; unfold jskip; find_osv; rfl
    | some w => dsimp only; unfold jskip; find_osv; rfl
  case severity =>
    intro i s hs
    constructor
    · unfold OsvFile.serialize; find_osv; rw [jsonAt_elem (l := (exportedFile L o).severity) hs]; unfold jseverity; find_osv; rw [(hsev s).1]; rfl
    · unfold OsvFile.serialize; find_osv; rw [jsonAt_elem (l := (exportedFile L o).severity) hs]; unfold jseverity; find_osv; rw [(hsev s).2]; rfl
  case lastSeverity => unfold OsvFile.serialize; find_osv; exact jsonAt_none
  case reference =>
    intro i r hr
    have hr' : (exportedFile L o).references[i]? = some { kind := refKind r.kind, url := r.url } := by
      unfold exportedFile; rw [List.getElem?_map, hr]; rfl
    constructor
    · unfold OsvFile.serialize; find_osv; rw [jsonAt_elem hr']; unfold jreference; find_osv; rw [href]; rfl
    · unfold OsvFile.serialize; find_osv; rw [jsonAt_elem hr']; unfold jreference; find_osv; rfl
  case lastReference =>
    unfold OsvFile.serialize; find_osv
    have : o.references.length = (exportedFile L o).references.length := by simp [exportedFile]
    rw [this, jsonAt_none]
  all_goals (unfold OsvFile.serialize; find_osv; rfl)

end Verif.Props
