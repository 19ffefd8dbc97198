import Verif.Spec.OsvJson
import Verif.Props.JsonPretty
import Verif.Props.ReportJson
import Verif.Props.OsvExport
import Verif.Props.SyncCmd

/-!
# C82: OSV files
-/

namespace Verif.Props

open Verif Verif.Semver Verif.Osv Verif.Lock Verif.Adv Verif.RepJson Verif.Export Verif.OsvJson Verif.Spec Verif.Sync

/-! ## Members -/

theorem values_head (k : String) (j : Json) (l : List (Str × Json)) :
    values ((k.toList, j) :: l) k = j :: values l k := by
  simp [values]

theorem values_skip {k k' : String} (h : (k'.toList == k.toList) = false) (j : Json) (l : List (Str × Json)) :
    values ((k'.toList, j) :: l) k = values l k := by
  have h' : ¬ k'.toList = k.toList := by simpa using h
  unfold values
  rw [List.filter_cons_of_neg (by simpa using h')]

theorem values_nil (k : String) : values [] k = [] := rfl

theorem values_append (l l' : List (Str × Json)) (k : String) : values (l ++ l') k = values l k ++ values l' k := by
  simp [values]

theorem values_jskip {α : Type} (k : String) (f : α → Json) (o : Option α) :
    values (jskip k f o) k = (o.map f).toList := by
  cases o with
  | none => rfl
  | some a => simp [jskip, values]

theorem values_jskip_ne {α : Type} {k k' : String} (h : (k'.toList == k.toList) = false) (f : α → Json) (o : Option α) :
    values (jskip k' f o) k = [] := by
  cases o with
  | none => rfl
  | some a => exact values_skip h _ _

/-- Finds the values of members. -/
macro "find_values" : tactic =>
  `(tactic| (simp only [need, may, values_append];
             repeat first | rw [values_head] | rw [values_nil] | rw [values_jskip] | rw [values_skip (by decide)]
                          | rw [values_jskip_ne (by decide)]))

theorem values_perm {l l' : List (Str × Json)} (h : l.Perm l') (k : String) : (values l k).Perm (values l' k) :=
  (h.filter _).map _

theorem need_perm {α : Type} {l l' : List (Str × Json)} (h : l.Perm l') (k : String) (f : Json → Outcome α) :
    need l k f = need l' k f := by
  have hp := values_perm h k
  have hl := hp.length_eq
  unfold need
  match h1 : values l k, h2 : values l' k with
  | [], [] => rfl
  | [a], [b] => rw [h1, h2] at hp; rw [List.perm_singleton.mp hp.symm |> List.singleton_inj.mp]
  | [], _ :: _ => rw [h1, h2] at hl; simp at hl
  | _ :: _, [] => rw [h1, h2] at hl; simp at hl
  | [_], _ :: _ :: _ => rw [h1, h2] at hl; simp at hl
  | _ :: _ :: _, [_] => rw [h1, h2] at hl; simp at hl
  | _ :: _ :: _, _ :: _ :: _ => rfl

theorem may_perm {α : Type} {l l' : List (Str × Json)} (h : l.Perm l') (k : String) (d : α) (f : Json → Outcome α) :
    may l k d f = may l' k d f := by
  have hp := values_perm h k
  have hl := hp.length_eq
  unfold may
  match h1 : values l k, h2 : values l' k with
  | [], [] => rfl
  | [a], [b] => rw [h1, h2] at hp; rw [List.perm_singleton.mp hp.symm |> List.singleton_inj.mp]
  | [], _ :: _ => rw [h1, h2] at hl; simp at hl
  | _ :: _, [] => rw [h1, h2] at hl; simp at hl
  | [_], _ :: _ :: _ => rw [h1, h2] at hl; simp at hl
  | _ :: _ :: _, [_] => rw [h1, h2] at hl; simp at hl
  | _ :: _ :: _, _ :: _ :: _ => rfl

/-! ## Writing and reading -/

theorem dopt_jopt {α : Type} {f : α → Json} {g : Json → Outcome α} {o : Option α} (hn : ∀ x, f x ≠ .null)
    (h : ∀ x, o = some x → g (f x) = .ok x) : dopt g (jopt f o) = .ok o := by
  cases o with
  | none => rfl
  | some x =>
    have : dopt g (f x) = Cvss.Outcome.map some (g (f x)) := by
      unfold dopt
      split
      · next h => exact absurd h (hn x)
      · rfl
    simp only [jopt, this, h x rfl, Cvss.Outcome.map]

theorem event_back (e : OsvEvent) : devent (jevent e) = .ok e := by
  cases e <;> rfl

theorem osvPackage_back (p : OsvPackage) : dosvPackage (josvPackage p) = .ok p := by
  unfold dosvPackage josvPackage members
  simp only
  find_values
  simp only [dstr_str, Outcome.bind_ok, dopt_jopt (f := jstr) (g := dstr .ok) (o := p.purl) (fun _ => by simp [jstr]) fun _ _ => rfl]

theorem range_back (r : OsvJsonRange) : drange (jrange r) = .ok r := by
  unfold drange jrange members
  simp only
  find_values
  simp only [dstr_str, Outcome.bind_ok, darr_map (f := jevent) fun e (_ : e ∈ r.events) => event_back e]

theorem path_back {p : List Str} (h : FromText FunctionPath.fromStr p) : dstr FunctionPath.fromStr (jpath p) = .ok p := by
  obtain ⟨s, hs⟩ := h
  have hd := ((C21_round_trip s p).1.mp hs).2
  unfold jpath
  rw [hd]
  exact hs

theorem paths_back {l : List (List Str)} (h : ∀ p ∈ l, FromText FunctionPath.fromStr p) :
    darr (dstr FunctionPath.fromStr) (jarr jpath l) = .ok l := darr_map fun p hp => path_back (h p hp)

theorem affects_back {a : OsvAffects} (h : ∀ p ∈ a.functions, FromText FunctionPath.fromStr p) :
    daffects (jaffects a) = .ok a := by
  unfold daffects jaffects members
  simp only
  find_values
  simp only [strs_back, paths_back h, Outcome.bind_ok]

theorem ecosystem_back {e : OsvEcosystem}
    (h : (∀ x, e.affects = some x → ∀ p ∈ x.functions, FromText FunctionPath.fromStr p) ∧
      ∀ l, e.affectedFunctions = some l → ∀ p ∈ l, FromText FunctionPath.fromStr p) :
    decosystem (jecosystem e) = .ok e := by
  unfold decosystem jecosystem members
  simp only
  find_values
  simp only [dopt_jopt (f := jaffects) (fun _ => by simp [jaffects]) fun x hx => affects_back (h.1 x hx),
    dopt_jopt (f := jarr jpath) (fun _ => by simp [jarr]) fun x hx => paths_back (h.2 x hx), Outcome.bind_ok]

theorem affectedFile_back {a : OsvAffectedFile} (h : AffectedFileRead a) : daffectedFile (jaffectedFile a) = .ok a := by
  have hd : dosvDatabase (josvDatabase a.databaseSpecific) = .ok a.databaseSpecific := by
    unfold dosvDatabase josvDatabase members
    simp only
    find_values
    have h2 : darr (dstr fun s => Outcome.ok (Category.fromStr s)) (jarr (fun c => jstr c.name) a.databaseSpecific.categories) =
        .ok a.databaseSpecific.categories := darr_map fun c hc => by rw [dstr_str, C23_open.1.2 c (h.categories c hc)]
    have h3 : dopt (dstr Cvss.Cvss.fromStr) (jopt (fun c => jstr c.display) a.databaseSpecific.cvss) =
        .ok a.databaseSpecific.cvss :=
      dopt_str fun c hc => by
        obtain ⟨s, hs⟩ := h.cvss c hc
        exact (Cvss.C59_parsed_well_formed s c hs).2
    have h4 : dopt (dstr fun s => Outcome.ok (Informational.fromStr s))
        (jopt (fun i => jstr i.asStr) a.databaseSpecific.informational) =
        .ok a.databaseSpecific.informational := dopt_str fun i hi => by rw [C23_open.2.1.2 i (h.informational i hi)]
    simp only [h2, h3, h4, Outcome.bind_ok]
  unfold daffectedFile jaffectedFile members
  simp only
  find_values
  simp only [osvPackage_back, hd, dopt_jopt (f := jecosystem) (fun _ => by simp [jecosystem]) fun x hx => ecosystem_back (h.functions x hx),
    dopt_jopt (f := jarr jrange) (g := darr drange) (o := a.ranges) (fun _ => by simp [jarr])
      (fun x _ => darr_map fun r _ => range_back r),
    dopt_jopt (f := jarr jstr) (g := darr (dstr .ok)) (o := a.versions) (fun _ => by simp [jarr]) (fun x _ => strs_back x),
    Outcome.bind_ok]

theorem fromName_name (k : OsvRefKind) : OsvRefKind.fromName k.name = some k := by cases k <;> decide

theorem reference_back {L : ReportLib} (hL : ReportLib.Lawful L) {r : OsvRef} (h : ∃ s, Url.parse L.adv.url s = some r.url) :
    dreference L (jreference r) = .ok r := by
  unfold dreference jreference members
  simp only
  find_values
  simp only [dstr_str, url_back hL.url h, Outcome.bind_ok]
  simp only [jstr, drefKind, fromName_name, ofOption, Outcome.bind_ok]

theorem osvSeverity_back {s : OsvSeverity} (h : SeverityRead s) : dseverity (jseverity s) = .ok s := by
  unfold dseverity jseverity members
  simp only
  find_values
  simp only [dstr_str, Outcome.bind_ok]
  cases s with
  | v2 v =>
    obtain ⟨t, ht⟩ := h
    have := Cvss.C34_round_trip v ((Cvss.C34_parse_iff t v).mp ht).1
    unfold dscore severityType
    dsimp only
    rw [if_pos rfl]
    simp only [OsvSeverity.score, dstr_str, this, Cvss.Outcome.map]
  | v3 b =>
    obtain ⟨t, ht⟩ := h
    have := Cvss.C33_round_trip b ((Cvss.C33_parse_iff t b).mp ht).1
    unfold dscore severityType
    dsimp only
    rw [if_neg (by decide), if_pos rfl]
    simp only [OsvSeverity.score, dstr_str, this, Cvss.Outcome.map]
  | v4 v =>
    obtain ⟨t, ht⟩ := h
    have hv := (Cvss.C35_parse_iff t v).mp ht
    have := Cvss.C35_round_trip v hv.1 hv.2.1
    unfold dscore severityType
    dsimp only
    rw [if_neg (by decide), if_neg (by decide), if_pos rfl]
    simp only [OsvSeverity.score, dstr_str, this, Cvss.Outcome.map]

theorem may_skip {α : Type} {l : List (Str × Json)} {k : String} {f : α → Json} {g : Json → Outcome α} {o : Option α}
    (hv : values l k = (o.map f).toList) (hn : ∀ x, f x ≠ .null) (h : ∀ x, o = some x → g (f x) = .ok x) :
    may l k none (dopt g) = Outcome.ok o := by
  unfold may
  rw [hv]
  cases o with
  | none => rfl
  | some x => exact dopt_jopt (o := some x) hn h

/-- **C82, round trip.**  A record whose parts were read from text is written in a form that is read as the same record. -/
theorem C82_round_trip {L : ReportLib} (hL : ReportLib.Lawful L) {o : OsvFile} (h : OsvFileRead L o) :
    OsvFile.deserialize L (o.serialize L) = .ok o := by
  have e3 : dopt (dstr .ok) (jopt jstr o.license) = .ok o.license :=
    dopt_jopt (f := jstr) (g := dstr .ok) (fun _ => by simp [jstr]) fun _ _ => rfl
  unfold OsvFile.deserialize OsvFile.serialize members
  simp only
  rw [may_skip (k := "schema_version") (f := fun v => jstr (L.showVersion v)) (o := o.schemaVersion) (by find_values; simp)
    (fun _ => by simp [jstr]) fun v hv => version_back hL (h.schemaVersion v hv)]
  rw [may_skip (k := "withdrawn") (f := jstr) (o := o.withdrawn) (by find_values; simp)
    (fun _ => by simp [jstr]) fun v hv => rfl]
  find_values
  simp only [List.nil_append, List.append_nil, dstr_str, id_back h.id, ids_back h.aliases, ids_back h.related,
    darr_map fun s hs => osvSeverity_back (h.severity s hs), darr_map fun s hs => affectedFile_back (h.affected s hs),
    darr_map fun s hs => reference_back hL (h.references s hs), Outcome.bind_ok]
  rw [values_head, values_nil]
  simp only [e3, Outcome.bind_ok]

end Verif.Props
