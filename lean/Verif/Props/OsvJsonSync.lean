import Verif.Props.OsvJsonText
import Verif.Props.OsvExportExamples

/-!
# C82: the commands, and violations
-/

namespace Verif.Props

open Verif Verif.Semver Verif.Osv Verif.Lock Verif.Adv Verif.RepJson Verif.Export Verif.OsvJson Verif.Spec Verif.Sync
open Verif.Git Verif.Assign

/-! ## No panic -/

theorem need_calm {α : Type} {l : List (Str × Json)} {k : String} {f : Json → Outcome α} (h : ∀ j, f j ≠ .panic) :
    need l k f ≠ .panic := by
  unfold need
  split
  · exact h _
  · simp

theorem may_calm {α : Type} {l : List (Str × Json)} {k : String} {d : α} {f : Json → Outcome α} (h : ∀ j, f j ≠ .panic) :
    may l k d f ≠ .panic := by
  unfold may
  split
  · simp
  · exact h _
  · simp

theorem members_calm {α : Type} {f : List (Str × Json) → Outcome α} (h : ∀ l, f l ≠ .panic) (j : Json) :
    members f j ≠ .panic := by
  unfold members
  split
  · exact h _
  · simp

theorem dstr_calm {α : Type} {f : Str → Outcome α} (h : ∀ s, f s ≠ .panic) (j : Json) : dstr f j ≠ .panic := by
  unfold dstr
  split
  · exact h _
  · simp

theorem mapList_calm {α β : Type} {f : α → Outcome β} (h : ∀ x, f x ≠ .panic) (l : List α) : Outcome.mapList f l ≠ .panic := by
  induction l with
  | nil => simp [Outcome.mapList]
  | cons a l ih =>
    rw [Outcome.mapList]
    cases ha : f a with
    | panic => exact absurd ha (h a)
    | err => simp
    | ok b =>
      simp only
      cases hl : Outcome.mapList f l with
      | panic => exact absurd hl ih
      | err => simp
      | ok _ => simp

theorem darr_calm {α : Type} {f : Json → Outcome α} (h : ∀ j, f j ≠ .panic) (j : Json) : darr f j ≠ .panic := by
  unfold darr
  split
  · exact mapList_calm h _
  · simp

theorem map_calm {α β : Type} {f : α → β} {x : Outcome α} (h : x ≠ .panic) : Cvss.Outcome.map f x ≠ .panic := by
  cases x with
  | ok a => simp [Cvss.Outcome.map]
  | err => simp [Cvss.Outcome.map]
  | panic => exact absurd rfl h

theorem dopt_calm {α : Type} {f : Json → Outcome α} (h : ∀ j, f j ≠ .panic) (j : Json) : dopt f j ≠ .panic := by
  unfold dopt
  split
  · simp
  · exact map_calm (h _)

theorem bind_calm {α β : Type} {x : Outcome α} {f : α → Outcome β} (hx : x ≠ .panic) (h : ∀ a, f a ≠ .panic) :
    (x >>= f) ≠ .panic := by
  cases x with
  | ok a => exact h a
  | err => simp [Outcome.bind_err]
  | panic => exact absurd rfl hx

theorem ofOption_calm {α : Type} (o : Option α) : (ofOption o : Outcome α) ≠ .panic := by cases o <;> simp [ofOption]

theorem plain_calm (j : Json) : dstr Outcome.ok j ≠ .panic := dstr_calm (by simp) j

theorem plains_calm (j : Json) : darr (dstr Outcome.ok) j ≠ .panic := darr_calm plain_calm j

theorem id_calm (j : Json) : dstr Id.fromStr j ≠ .panic := dstr_calm (fun s => (C19_accepts_iff s).2) j

theorem path_calm (j : Json) : dstr FunctionPath.fromStr j ≠ .panic := dstr_calm (fun s => (C21_round_trip s []).2) j

theorem devent_calm (j : Json) : devent j ≠ .panic := by
  unfold devent
  split
  · split
    · exact map_calm (plain_calm _)
    · split
      · exact map_calm (plain_calm _)
      · split
        · exact map_calm (plain_calm _)
        · simp
  · simp

theorem daffectedFile_calm (j : Json) : daffectedFile j ≠ .panic := by
  unfold daffectedFile
  refine members_calm (fun t => ?_) j
  refine bind_calm (need_calm fun j => ?_) fun _ => ?_
  · exact members_calm (fun t => bind_calm (need_calm plain_calm) fun _ => bind_calm (need_calm plain_calm) fun _ =>
      bind_calm (may_calm (dopt_calm plain_calm)) fun _ => by simp) j
  refine bind_calm (may_calm (dopt_calm fun j => ?_)) fun _ => ?_
  · refine members_calm (fun t => ?_) j
    refine bind_calm (may_calm (dopt_calm fun j => ?_)) fun _ => ?_
    · exact members_calm (fun t => bind_calm (need_calm plains_calm) fun _ => bind_calm (need_calm plains_calm) fun _ =>
        bind_calm (need_calm (darr_calm path_calm)) fun _ => by simp) j
    exact bind_calm (may_calm (dopt_calm (darr_calm path_calm))) fun _ => by simp
  refine bind_calm (need_calm fun j => ?_) fun _ => ?_
  · refine members_calm (fun t => ?_) j
    exact bind_calm (may_calm (darr_calm (dstr_calm (by simp)))) fun _ =>
      bind_calm (may_calm (dopt_calm (dstr_calm Cvss.C59_total))) fun _ =>
      bind_calm (may_calm (dopt_calm (dstr_calm (by simp)))) fun _ => by simp
  refine bind_calm (may_calm (dopt_calm (darr_calm fun j => ?_))) fun _ => ?_
  · exact members_calm (fun t => bind_calm (need_calm plain_calm) fun _ => bind_calm (need_calm (darr_calm devent_calm)) fun _ =>
      by simp) j
  exact bind_calm (may_calm (dopt_calm plains_calm)) fun _ => by simp

theorem dseverity_calm (j : Json) : dseverity j ≠ .panic := by
  unfold dseverity
  refine members_calm (fun t => bind_calm (need_calm plain_calm) fun ty => need_calm fun j => ?_) j
  unfold dscore
  split
  · exact dstr_calm (fun s => map_calm (Cvss.C34_total s)) j
  · split
    · exact dstr_calm (fun s => map_calm (Cvss.C33_total s)) j
    · split
      · exact dstr_calm (fun s => map_calm (Cvss.C35_total s)) j
      · simp

theorem dreference_calm (L : ReportLib) (j : Json) : dreference L j ≠ .panic := by
  unfold dreference
  refine members_calm (fun t => bind_calm (need_calm fun j => ?_) fun _ => bind_calm (need_calm fun j => ?_) fun _ => by simp) j
  · unfold drefKind
    split
    · exact ofOption_calm _
    · exact ofOption_calm _
    · simp
  · exact dstr_calm (fun s => ofOption_calm _) j

/-- **C82, no panic.**  Reading a record never panics, whatever the JSON. -/
theorem C82_no_panic (L : ReportLib) (j : Json) : OsvFile.deserialize L j ≠ .panic := by
  unfold OsvFile.deserialize
  refine members_calm (fun t => ?_) j
  refine bind_calm (may_calm (dopt_calm (dstr_calm fun s => ofOption_calm _))) fun _ => ?_
  refine bind_calm (need_calm id_calm) fun _ => ?_
  refine bind_calm (need_calm plain_calm) fun _ => ?_
  refine bind_calm (need_calm plain_calm) fun _ => ?_
  refine bind_calm (may_calm (dopt_calm plain_calm)) fun _ => ?_
  refine bind_calm (may_calm (darr_calm id_calm)) fun _ => ?_
  refine bind_calm (may_calm (darr_calm id_calm)) fun _ => ?_
  refine bind_calm (need_calm plain_calm) fun _ => ?_
  refine bind_calm (need_calm plain_calm) fun _ => ?_
  refine bind_calm (may_calm (darr_calm dseverity_calm)) fun _ => ?_
  refine bind_calm (may_calm (darr_calm daffectedFile_calm)) fun _ => ?_
  refine bind_calm (may_calm (darr_calm (dreference_calm L))) fun _ => ?_
  refine bind_calm (may_calm (members_calm fun d => may_calm (dopt_calm plain_calm))) fun _ => ?_
  simp

/-! ## The commands -/

theorem writes_from (W : ExportEnv) (fs : List (Path × Str)) :
    ∀ w ∈ (exportFiles W fs).writes, ∃ f ∈ fs, exportFile W f = .ok (some w) := by
  induction fs with
  | nil => simp [exportFiles]
  | cons f fs ih =>
    intro w hw
    unfold exportFiles at hw
    cases he : exportFile W f with
    | err => rw [he] at hw; cases hw
    | panic => rw [he] at hw; cases hw
    | ok r =>
      rw [he] at hw
      cases r with
      | none =>
        obtain ⟨g, hg, h⟩ := ih w hw
        exact ⟨g, by simp [hg], h⟩
      | some x =>
        simp only [List.mem_cons] at hw
        rcases hw with rfl | hw
        · exact ⟨f, by simp, he⟩
        · obtain ⟨g, hg, h⟩ := ih w hw
          exact ⟨g, by simp [hg], h⟩

theorem exportFile_from {W : ExportEnv} {f : Path × Str} {w : Str × OsvAdvisory} (h : exportFile W f = .ok (some w)) :
    ∃ a, AdvisoryFile.fromStr W.adv f.2 = .ok a ∧
      fromRustsec W.cal W.adv.url a W.modTimes (gitPath f.1) = .ok w.2 := by
  unfold exportFile at h
  split at h
  · cases h
  · cases h
  · next a ha =>
    split at h
    · split at h
      · obtain ⟨o, ho, h⟩ := bindOk h
        cases h
        exact ⟨a, ha, ho⟩
      · cases h
    · cases h

/-- **C82, the export command.**  Whether or not the command succeeds, every file that it wrote is JSON that is read as the
record it was made from, and says so at the places of the OSV schema. -/
theorem C82_command {L : ReportLib} (hL : ReportLib.Lawful L) (cal : Int → Int × Nat × Nat) (i : ExportInput) :
    ∀ w ∈ (osvCommand L.adv cal i).writes,
      readOsv L (osvText L w.2) = some w.2.record ∧ ∃ j, readJson (osvText L w.2) = some j ∧ ShowsOsv L j w.2 := by
  intro w hw
  unfold osvCommand at hw
  cases hW : ExportEnv.new L.adv cal i.objects i.history i.head with
  | err => rw [hW] at hw; cases hw
  | panic => rw [hW] at hw; cases hw
  | ok W =>
    rw [hW] at hw
    simp only at hw
    unfold exportAll at hw
    split at hw
    · cases hw
    · obtain ⟨f, -, hf⟩ := writes_from W _ w hw
      obtain ⟨a, ha, ho⟩ := exportFile_from hf
      have hadv : W.adv = L.adv := by
        unfold ExportEnv.new at hW
        split at hW
        · cases hW; rfl
        · cases hW
        · cases hW
      rw [hadv] at ha ho
      exact ⟨(C82_exported hL ha ho).2, C82_places L ho⟩

/-- **C82, one bad file ends `sync`.**  If the export holds one file that counts and is JSON of another shape than this
program requires, nothing is loaded. -/
theorem C82_rejects (L : ReportLib) (dir : Str) (es : List ExportEntry) (e : ExportEntry) (he : e ∈ es)
    (hc : Counts dir e.name) (t : Str) (ht : e.content = some t) (j : Json) (hj : readJson t = some j) (hr : ¬ Readable j) :
    loadExport (readOsv L) dir (some es) = .err := by
  cases h : loadExport (readOsv L) dir (some es) with
  | err => rfl
  | panic => exact absurd ((C75_load_panic _ _ _).mp h) (by simp)
  | ok osv =>
    obtain ⟨es', h1, h2⟩ := (C75_load _ _ _ _).mp h
    cases h1
    obtain ⟨o, -, t', ht', ho⟩ := forall2_left h2 (a := e) (by simp [he, hc])
    rw [ht] at ht'
    cases ht'
    unfold readOsv at ho
    obtain ⟨f, hf, -⟩ := Option.map_eq_some_iff.mp ho
    unfold readOsvFile at hf
    rw [hj, Option.bind_some] at hf
    split at hf
    · next x hx => exact absurd (C82_readable L j x hx) hr
    · cases hf

/-! ## Examples and violations -/

/-- A record with the given summary, events and reference type. -/
def osvSample (summary : List (Str × Json)) (event reference : String) : Json :=
  .obj ([("id".toList, .str "GHSA-abcd-efgh-ijkl".toList), ("modified".toList, .str "2024-01-02T03:04:05Z".toList),
      ("published".toList, .str "2024-01-01T00:00:00Z".toList)] ++ summary ++
    [("details".toList, .str "x".toList),
      ("affected".toList, .arr [.obj [
        ("package".toList, .obj [("ecosystem".toList, .str "crates.io".toList), ("name".toList, .str "foo".toList)]),
        ("ranges".toList, .arr [.obj [("type".toList, .str "SEMVER".toList),
          ("events".toList, .arr [.obj [(event.toList, .str "1.0.0".toList)]])]]),
        ("database_specific".toList, .obj [])]]),
      ("references".toList, .arr [.obj [("type".toList, .str reference.toList),
        ("url".toList, .str "https://x/".toList)]])])

/-- Whether a record is read. -/
def readsB (L : ReportLib) (j : Json) : Bool :=
  match OsvFile.deserialize L j with
  | .ok _ => true
  | _ => false

/-- A record of the usual form is read. -/
example : readsB jsonLib (osvSample [("summary".toList, .str "y".toList)] "introduced" "WEB") = true := by decide +kernel

/-- Records that the OSV schema allows and this program refuses: an event `limit`, a reference of type `DISCUSSION`, no
summary. -/
theorem C82_violation_refused (L : ReportLib) :
    OsvFile.deserialize L (osvSample [("summary".toList, .str "y".toList)] "limit" "WEB") = .err ∧
    OsvFile.deserialize L (osvSample [("summary".toList, .str "y".toList)] "introduced" "DISCUSSION") = .err ∧
    OsvFile.deserialize L (osvSample [] "introduced" "WEB") = .err := by
  have key : ∀ j, ¬ Readable j → OsvFile.deserialize L j = .err := by
    intro j hj
    cases h : OsvFile.deserialize L j with
    | err => rfl
    | panic => exact absurd h (C82_no_panic L j)
    | ok o => exact absurd (C82_readable L j o h) hj
  refine ⟨key _ fun h => ?_, key _ fun h => ?_, key _ fun h => ?_⟩
  · obtain ⟨es, h1, h2⟩ := h.events _ (.head _) _ (.head _) _ (.head _) _ (.head _)
    have h3 : es = [.obj [("limit".toList, .str "1.0.0".toList)]] := by
      have h4 : membersCalled "events" (.obj [("type".toList, .str "SEMVER".toList),
          ("events".toList, .arr [.obj [("limit".toList, .str "1.0.0".toList)]])]) =
        [.arr [.obj [("limit".toList, .str "1.0.0".toList)]]] := rfl
      exact Json.arr.inj (List.singleton_inj.mp (h1.symm.trans h4))
    obtain ⟨k, hk, v, hv⟩ := h2 (.obj [("limit".toList, .str "1.0.0".toList)]) (by rw [h3]; exact .head _)
    have : "limit".toList = k.toList := congrArg Prod.fst (List.singleton_inj.mp (Json.obj.inj hv))
    simp only [List.mem_cons, List.not_mem_nil, or_false] at hk
    rcases hk with rfl | rfl | rfl <;> exact absurd this (by decide)
  · obtain ⟨k, hk, h1⟩ := h.references _ (.head _) _ (.head _)
    unfold knownReferences at hk
    simp only [List.mem_cons, List.not_mem_nil, or_false] at hk
    have h2 : ∀ x, membersCalled "type" (.obj [("type".toList, .str "DISCUSSION".toList),
        ("url".toList, .str "https://x/".toList)]) = [x] → x = .str "DISCUSSION".toList := by
      intro x hx
      have h4 : membersCalled "type" (.obj [("type".toList, .str "DISCUSSION".toList),
        ("url".toList, .str "https://x/".toList)]) = [.str "DISCUSSION".toList] := rfl
      exact List.singleton_inj.mp (hx.symm.trans h4)
    rcases h1 with h1 | h1
    · have := Json.str.inj (h2 _ h1)
      rcases hk with rfl | rfl | rfl | rfl | rfl | rfl <;> exact absurd this (by decide)
    · exact absurd (h2 _ h1) (by simp)
  · obtain ⟨s, hs⟩ := h.required "summary" (by decide)
    exact absurd hs (by rw [show membersCalled "summary" (osvSample [] "introduced" "WEB") = [] from rfl]; simp)

/-- Libraries for `exportLib` in which reading what is written gives it back. -/
def osvLib : ReportLib := { jsonLib with adv := { exportLib with url := toyUrl } }

/-- They follow the laws, and the exporter writes a file with them, so `C82_command` says something. -/
example : ReportLib.Lawful osvLib ∧ ((osvCommand osvLib.adv exportCal (exportRepo exportDisk)).writes.length == 2) = true :=
  ⟨jsonLib_lawful, by decide +kernel⟩

/-- A directory with one bad file, for `C82_rejects`. -/
example : loadExport (readOsv jsonLib) "osv".toList
    (some [{ name := "GHSA-1.json".toList, content := some "{}".toList }]) = .err :=
  C82_rejects jsonLib _ _ _ (.head _) ⟨⟨"GHSA-1".toList, by decide, by decide⟩, by decide, by decide⟩ "{}".toList rfl
    (.obj []) (by have := readJson_print (.obj []); exact this) fun h => by
      obtain ⟨s, hs⟩ := h.required "id" (.head _)
      exact absurd hs (by simp [membersCalled])

end Verif.Props
