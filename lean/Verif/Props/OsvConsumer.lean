import Verif.Spec.OsvConsumer
import Verif.Lemmas.OsvValid
import Verif.Props.OsvJsonSync
import Verif.Props.OsvExportAll
import Verif.Props.SemverLib
import Verif.Spec.Project

/-!
# C97: what a reader concludes from the exported OSV files is what the advisories' texts say
-/

namespace Verif.Props

open Verif Verif.Semver Verif.Osv Verif.Spec Verif.Adv Verif.Db Verif.Export Verif.OsvJson Verif.RepJson Verif.Git
open Verif.Lock (Url UrlLib)
open Verif.Assign

/-- The JSON of an event. -/
def eventJson (e : TimelineEvent) : Json :=
  .obj [((osvEventName e).1.toList, .str (osvEventName e).2.text)]

theorem eventName_version (e : TimelineEvent) : (osvEventName e).2 = eventVersion e := by cases e <;> rfl

theorem not_lt_iff (u v : Version) : ¬ v.cmpPrec u = .lt ↔ PrecLE u v := by
  unfold PrecLE
  rw [Version.cmpPrec_swap u v]
  cases v.cmpPrec u <;> simp [Ordering.swap]

theorem one_member {n m : Str} {s t : Str} (h : Json.obj [(n, .str s)] = .obj [(m, .str t)]) : n = m ∧ s = t := by
  injection h with h
  injection h with h _
  injection h with h1 h2
  injection h2 with h2
  exact ⟨h1, h2⟩

theorem introduced_iff {v w : Version} {b c : Bool} {es : List Json} {text : Str} (hw : readVersion text = some w) :
    Evaluates v b (.obj [("introduced".toList, .str text)] :: es) c ↔
      Evaluates v (if v.cmpPrec w = .lt then b else true) es c := by
  by_cases hl : v.cmpPrec w = .lt
  · rw [if_pos hl]
    constructor
    · intro hh
      cases hh with
      | introduced he hu hv h =>
        obtain ⟨-, rfl⟩ := one_member he
        rw [hw] at hu; cases hu
        exact absurd hl ((not_lt_iff _ _).mpr hv)
      | fixed he hu hv h => exact absurd (one_member he).1 (by decide)
      | later hn he hu hv h => exact h
    · exact fun hh => .later (name := "introduced") (.inl rfl) rfl hw hl hh
  · rw [if_neg hl]
    constructor
    · intro hh
      cases hh with
      | introduced he hu hv h => exact h
      | fixed he hu hv h => exact absurd (one_member he).1 (by decide)
      | later hn he hu hv h =>
        obtain ⟨-, rfl⟩ := one_member he
        rw [hw] at hu; cases hu
        exact absurd hv hl
    · exact fun hh => .introduced rfl hw ((not_lt_iff _ _).mp hl) hh

theorem fixed_iff {v w : Version} {b c : Bool} {es : List Json} {text : Str} (hw : readVersion text = some w) :
    Evaluates v b (.obj [("fixed".toList, .str text)] :: es) c ↔
      Evaluates v (if v.cmpPrec w = .lt then b else false) es c := by
  by_cases hl : v.cmpPrec w = .lt
  · rw [if_pos hl]
    constructor
    · intro hh
      cases hh with
      | introduced he hu hv h => exact absurd (one_member he).1 (by decide)
      | fixed he hu hv h =>
        obtain ⟨-, rfl⟩ := one_member he
        rw [hw] at hu; cases hu
        exact absurd hl ((not_lt_iff _ _).mpr hv)
      | later hn he hu hv h => exact h
    · exact fun hh => .later (name := "fixed") (.inr rfl) rfl hw hl hh
  · rw [if_neg hl]
    constructor
    · intro hh
      cases hh with
      | introduced he hu hv h => exact absurd (one_member he).1 (by decide)
      | fixed he hu hv h => exact h
      | later hn he hu hv h =>
        obtain ⟨-, rfl⟩ := one_member he
        rw [hw] at hu; cases hu
        exact absurd hv hl
    · exact fun hh => .fixed rfl hw ((not_lt_iff _ _).mp hl) hh

theorem event_read {e : TimelineEvent} (h : (eventVersion e).Valid) :
    readVersion (osvEventName e).2.text = some (eventVersion e) := by
  rw [eventName_version]
  exact (C90_version _ _).mpr ⟨h, rfl⟩

theorem evaluates_iff (v : Version) : ∀ {es : List TimelineEvent}, (∀ e ∈ es, (eventVersion e).Valid) → ∀ {b c : Bool},
    Evaluates v b (es.map eventJson) c ↔ evalEvents v es b = c
  | [], _, b, c => by
    constructor
    · intro h; cases h; rfl
    · rintro rfl; exact .finished
  | .introduced w :: es, h, b, c => by
    have ih := fun b => evaluates_iff v (es := es) (fun x hx => h x (by simp [hx])) (b := b) (c := c)
    rw [List.map_cons, evalEvents, ← ih]
    exact introduced_iff (event_read (e := .introduced w) (h _ (by simp)))
  | .fixed w :: es, h, b, c => by
    have ih := fun b => evaluates_iff v (es := es) (fun x hx => h x (by simp [hx])) (b := b) (c := c)
    rw [List.map_cons, evalEvents, ← ih]
    exact fixed_iff (event_read (e := .fixed w) (h _ (by simp)))

theorem inOrder_of {es : List TimelineEvent} (h : es.Pairwise fun x y => PrecLE (eventVersion x) (eventVersion y))
    (hv : ∀ e ∈ es, (eventVersion e).Valid) : InOrder (es.map eventJson) := by
  unfold InOrder
  rw [List.pairwise_map]
  refine List.Pairwise.imp_of_mem ?_ h
  intro x y hx hy hxy n m s t u w h1 h2 hu hw
  obtain ⟨-, rfl⟩ := one_member h1
  obtain ⟨-, rfl⟩ := one_member h2
  rw [event_read (hv x hx)] at hu
  rw [event_read (hv y hy)] at hw
  cases hu
  cases hw
  exact hxy

/-! ### The places -/

theorem place_affected (L : ReportLib) {o : OsvAdvisory} {x : OsvAffected} (hx : o.affected = [x]) :
    jsonAt [.key "affected"] ((exportedFile L o).serialize L) = some (.arr [jaffectedFile (affectedFile L x)]) := by
  unfold OsvFile.serialize
  find_osv
  simp [exportedFile, hx, jarr]

theorem place_events (L : ReportLib) (hL : L.showVersion = Version.text) (x : OsvAffected) :
    jsonAt [.key "package", .key "ecosystem"] (jaffectedFile (affectedFile L x)) = some (.str x.ecosystem) ∧
    jsonAt [.key "package", .key "name"] (jaffectedFile (affectedFile L x)) = some (.str x.name) ∧
    jsonAt [.key "versions"] (jaffectedFile (affectedFile L x)) = some (.arr []) ∧
    ∃ r, jsonAt [.key "ranges"] (jaffectedFile (affectedFile L x)) = some (.arr [r]) ∧
      jsonAt [.key "type"] r = some (.str "SEMVER".toList) ∧
      jsonAt [.key "events"] r = some (.arr (x.events.map eventJson)) := by
  refine ⟨?_, ?_, ?_, ?_⟩
  · unfold jaffectedFile; find_osv; unfold josvPackage; find_osv; rfl
  · unfold jaffectedFile; find_osv; unfold josvPackage; find_osv; rfl
  · unfold jaffectedFile; find_osv; rfl
  · refine ⟨jrange { kind := "SEMVER".toList, events := x.events.map (eventText L) }, ?_, ?_, ?_⟩
    · unfold jaffectedFile; find_osv; rfl
    · unfold jrange; find_osv; rfl
    · unfold jrange; find_osv
      unfold jarr
      rw [List.map_map]
      refine congrArg (some ∘ Json.arr) (List.map_congr_left fun e _ => ?_)
      cases e <;> simp [jevent, eventText, eventJson, osvEventName, hL, jstr]

theorem affects_iff (L : ReportLib) (hL : L.showVersion = Version.text) {o : OsvAdvisory} {x : OsvAffected}
    (hx : o.affected = [x]) (hs : x.events.Pairwise fun x y => PrecLE (eventVersion x) (eventVersion y))
    (hv : ∀ e ∈ x.events, (eventVersion e).Valid) (crate : Str) (v : Version) :
    AffectsVersion ((exportedFile L o).serialize L) crate v ↔
      x.ecosystem = "crates.io".toList ∧ crate = x.name ∧ evalEvents v x.events false = true := by
  obtain ⟨h1, h2, h3, r, h4, h5, h6⟩ := place_events L hL x
  constructor
  · rintro ⟨packages, p, hp, hm, he, hn, h⟩
    rw [place_affected L hx] at hp
    cases hp
    simp only [List.mem_singleton] at hm
    subst hm
    rw [h1] at he
    rw [h2] at hn
    cases hn
    refine ⟨by injection he with he; injection he, rfl, ?_⟩
    rcases h with ⟨versions, hvs, hmem⟩ | ⟨ranges, r', events, hr, hmem, hsr, hev⟩
    · rw [h3] at hvs; cases hvs; cases hmem
    · rw [h4] at hr
      cases hr
      simp only [List.mem_singleton] at hmem
      subst hmem
      have := hsr.events
      rw [h6] at this
      cases this
      exact (evaluates_iff v hv).mp hev
  · rintro ⟨he, rfl, hev⟩
    refine ⟨_, _, place_affected L hx, by simp, by rw [h1, he], h2, .inr ⟨_, r, _, h4, by simp, ⟨h5, h6, inOrder_of hs hv⟩, ?_⟩⟩
    exact (evaluates_iff v hv).mpr hev

/-! ### The files -/

theorem parsed_reqs {L : AdvLib} (hL : UsesSemver L) {text : Str} {f : AdvisoryFile} (hf : AdvisoryOf L text f) :
    ∀ r ∈ f.versions.patched ++ f.versions.unaffected, ∃ s, readReq s = some r := by
  obtain ⟨parts, front, t, m, v, -, -, -, -, -, -, -, -, -, -, -, ⟨w, -, l, -, hl⟩, hu, -⟩ := hf.contents
  intro r hr
  rcases List.mem_append.mp hr with hr | hr
  · obtain ⟨x, -, s, -, hs⟩ := forall2_right hl r hr
    unfold ReadsReq at hs
    rw [hL] at hs
    exact ⟨s, hs⟩
  · rcases hu with ⟨-, he⟩ | ⟨w, -, l, -, hl⟩
    · rw [he] at hr; cases hr
    · obtain ⟨x, -, s, -, hs⟩ := forall2_right hl r hr
      unfold ReadsReq at hs
      rw [hL] at hs
      exact ⟨s, hs⟩

theorem read_room {L : AdvLib} (hL : UsesSemver L) {text : Str} {f : AdvisoryFile} (hf : AdvisoryOf L text f)
    (hm : BelowMax f) : ∀ r ∈ f.versions.patched ++ f.versions.unaffected, ∀ c ∈ r.comparators, RoomC c := by
  have hread := parsed_reqs hL hf
  intro r hr c hc
  have hv := (C90_req_valid (hread r hr).choose_spec).comparators c hc
  obtain ⟨m1, m2, m3⟩ := hm r hr c hc
  refine ⟨hv, ?_, ?_, ?_⟩
  · have := hv.major; omega
  · intro n hn
    have := hv.minor n hn
    have : n ≠ 2 ^ 64 - 1 := by rintro rfl; exact m2 hn
    omega
  · intro n hn
    have := hv.patch n hn
    have : n ≠ 2 ^ 64 - 1 := by rintro rfl; exact m3 hn
    omega

/-- One record. -/
theorem tally_of {L : ReportLib} (hL : ReportUsesSemver L) {text : Str} {f : AdvisoryFile}
    (hf : AdvisoryOf L.adv text f) (hm : BelowMax f) {cal : Int → Int × Nat × Nat} {m : ModTimes} {path : Str} {o : OsvAdvisory}
    (ho : fromRustsec cal L.adv.url f m path = .ok o) : ∃ j, readJson (osvText L o) = some j ∧ Tally f j := by
  have hp : AdvisoryFile.fromStr L.adv text = .ok f := (C68_parsed_iff _ _ _).mpr hf
  obtain ⟨v1, v2⟩ := parsed_versions (semver_reqWF hL.req) hp
  obtain ⟨j, hj, hshow⟩ := C82_places L ho
  have hj' : j = (exportedFile L o).serialize L := by
    unfold osvText at hj
    rw [readJson_pretty] at hj
    cases hj; rfl
  refine ⟨j, hj, ?_⟩
  obtain ⟨package, page, time, modified, published, events, withdrawn, -, -, -, -, -, h6, h7, rfl⟩ := fromRustsec_inv ho
  obtain ⟨t1, t2⟩ := C04_timeline_means_is_vulnerable _ _ _ v1 v2 events h6
  refine ⟨hshow.id, ?_, fun crate v => ?_⟩
  · rw [hshow.withdrawn]
    cases hw : f.metadata.withdrawn with
    | none => rw [hw] at h7; cases h7; simp
    | some d =>
      rw [hw] at h7
      unfold withdrawnText at h7
      obtain ⟨t, -, h7⟩ := bindOk h7
      cases h7
      simp
  · subst hj'
    rw [affects_iff L hL.showVersion rfl t1 (timeline_valid (read_room hL.req hf hm) h6)]
    obtain ⟨b, hb, hbi⟩ := C90_vulnerable L.adv hL.req text f hp v
    rw [t2 v] at hb
    cases hb
    rw [hbi]
    simp [LeftExposed]

/-- **C97, every file that is written.**  Whether or not the export succeeds: a file that it writes belongs to the text of an
advisory in `crates`, and a reader who follows the OSV schema concludes from it that a version of a crate is affected exactly
if the text is about this crate and none of its requirements covers the version. -/
theorem C97_written {L : ReportLib} (hL : ReportUsesSemver L) (cal : Int → Int × Nat × Nat) (i : ExportInput) :
    ∀ w ∈ (osvCommand L.adv cal i).writes, ∃ p text f, (p, text) ∈ i.disk ∧ p.collection = .crates ∧
      AdvisoryOf L.adv text f ∧ (BelowMax f → ∃ j, readJson (osvText L w.2) = some j ∧ Tally f j) := by
  intro w hw
  unfold osvCommand at hw
  cases hW : ExportEnv.new L.adv cal i.objects i.history i.head with
  | err => rw [hW] at hw; cases hw
  | panic => rw [hW] at hw; cases hw
  | ok W =>
    rw [hW] at hw
    simp only at hw
    unfold exportAll at hw
    split at hw
    · cases hw
    · obtain ⟨⟨p, text⟩, hf, he⟩ := writes_from W _ w hw
      obtain ⟨hm, hc⟩ := mem_crates_disk.mp hf
      obtain ⟨a, ha, ho⟩ := exportFile_from he
      rw [(env_ok hW).1] at ha ho
      have hf := (C68_parsed_iff _ _ _).mp ha
      exact ⟨p, text, a, hm, hc, hf, fun hb => tally_of hL hf hb ho⟩

/-- **C97, every advisory.**  After a successful export of a database that opens, there is for every advisory text of a crate
(not a draft, and of an informational kind that is exported) the file `<ID>.json`, from which a reader concludes what the text
says. -/
theorem C97_exported {L : ReportLib} (hL : ReportUsesSemver L) (cal : Int → Int × Nat × Nat) (sev : Cvss.Cvss → Severity)
    (i : ExportInput) (db : Database) (hpaths : (i.disk.map Prod.fst).Nodup) (hopen : i.disk.open L.adv sev = .ok db)
    (hdot : ∀ f ∈ i.disk, ¬ ['.'] <+: f.1.file)
    (hkind : ∀ p t f, (p, t) ∈ i.disk → p.collection = .crates → AdvisoryOf L.adv t f → f.metadata.id.kind = .rustSec)
    (h : (osvCommand L.adv cal i).result = .ok ())
    (p : Path) (text : Str) (f : AdvisoryFile) (hp : (p, text) ∈ i.disk) (hc : p.collection = .crates)
    (hf : AdvisoryOf L.adv text f) (hx : Exported f.metadata.informational)
    (hdraft : f.metadata.id.string ≠ "RUSTSEC-0000-0000".toList) (hm : BelowMax f) :
    ∃ o j, (osvCommand L.adv cal i).file (f.metadata.id.string ++ ".json".toList) = some o ∧
      readJson (osvText L o) = some j ∧ Tally f j := by
  have hf' : AdvisoryFile.fromStr L.adv text = .ok f := (C68_parsed_iff _ _ _).mpr hf
  have hname : ∀ p t f, (p, t) ∈ i.disk → p.collection = .crates → AdvisoryFile.fromStr L.adv t = .ok f →
      setJson f.metadata.id.string = f.metadata.id.string ++ ".json".toList := by
    intro p t f hp hc hf
    by_cases hph : f.metadata.id.string = placeholder
    · rw [hph]; decide
    · obtain ⟨x, hx⟩ := (parsed_fields hf).1
      have hs : f.metadata.id.string = x := (C19_parsed_contents x _ hx).1
      rw [← hs] at hx
      obtain ⟨Y, N, hy⟩ := rustSec_text hx (hkind p t f hp hc ((C68_parsed_iff _ _ _).mp hf)) hph
      exact setJson_noDot (rustSec_noDot hy)
  obtain ⟨m, -, hw⟩ := written_iff h
  -- the file is written
  have hin : ∃ o, (f.metadata.id.string ++ ".json".toList, o) ∈ (osvCommand L.adv cal i).writes := by
    obtain ⟨W, hW, -, h1, h2⟩ := osvCommand_ok.mp h
    obtain ⟨e1, e2, e3, e4⟩ := env_ok hW
    obtain ⟨a', ha', hx'⟩ :=
      (exportFile_iff W p text).1.mp ((exportFiles_ok W _).1.mp h1 _ (mem_crates_disk.mpr ⟨hp, hc⟩))
    rw [e1, hf'] at ha'
    cases ha'
    obtain ⟨q1, o, ho⟩ := hx' hx
    refine ⟨o, ?_⟩
    rw [h2, (exportFiles_ok W _).2 h1]
    refine ⟨(p, text), mem_crates_disk.mpr ⟨hp, hc⟩, ((exportFile_iff W p text).2 _ o).mpr ⟨f, ?_, hx, q1, ho, ?_⟩⟩
    · rw [e1]; exact hf'
    · rw [hname p text f hp hc hf']
  obtain ⟨o, hin⟩ := hin
  obtain ⟨o', ho'⟩ := lookup_written (List.mem_reverse.mpr hin)
  -- the last write of this name comes from the same file
  obtain ⟨p2, t2, f2, hm2, hc2, hf2, -, hr2, hn2⟩ := (hw _ o').mp (List.mem_reverse.mp (lookup_mem ho'))
  rw [hname _ _ _ hm2 hc2 hf2] at hn2
  have hstr : f.metadata.id.string = f2.metadata.id.string := List.append_cancel_right hn2
  have hid : f.metadata.id = f2.metadata.id := by
    obtain ⟨x1, e1⟩ := (parsed_fields hf').1
    obtain ⟨x2, e2⟩ := (parsed_fields hf2).1
    have s1 := (C19_parsed_contents x1 _ e1).1
    have s2 := (C19_parsed_contents x2 _ e2).1
    have s : x1 = x2 := s1.symm.trans (hstr.trans s2)
    rw [s, e2] at e1
    exact (Outcome.ok.inj e1).symm
  have l1 : loadText L.adv sev text = .ok (toAdvisory sev f) := by unfold loadText; rw [hf']
  have l2 : loadText L.adv sev t2 = .ok (toAdvisory sev f2) := by unfold loadText; rw [hf2]
  have hpp := load_unique hopen hp hm2 (hdot _ hp) (hdot _ hm2) l1 l2 hid hdraft
  subst hpp
  have htt : text = t2 := congrArg Prod.snd (List.inj_on_of_nodup_map hpaths hp hm2 rfl)
  subst htt
  rw [hf'] at hf2
  cases hf2
  obtain ⟨j, hj, ht⟩ := tally_of hL hf hm hr2
  exact ⟨o', j, ho', hj, ht⟩

/-- **C97, the export and the audit.**  A version that `cargo audit` reports for an advisory is affected according to the OSV
document of that advisory, and one that is not affected according to it is never reported. -/
theorem C97_audit {P : Audit.Project} {c : Audit.AuditConfig} {ch : AdminLint.Checkout} {lock : Str} {f : AdvisoryFile} {name : Str}
    {version : Version} {j : Json} (hj : Tally f j) (h : FindingOf P c ch lock f name version) :
    AffectsVersion j name version := by
  obtain ⟨source, text, -, -, -, -, ht⟩ := h
  exact (hj.affected _ _).mpr ⟨ht.name.symm, ht.exposed⟩

end Verif.Props
