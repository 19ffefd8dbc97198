import Verif.Props.OsvJson
import Verif.Props.SyncRun

/-!
# C82: what a record must look like to be read
-/

namespace Verif.Props

open Verif Verif.Semver Verif.Osv Verif.Lock Verif.Adv Verif.RepJson Verif.Export Verif.OsvJson Verif.Spec Verif.Sync

/-! ## Inversions -/

theorem need_ok {α : Type} {l : List (Str × Json)} {k : String} {f : Json → Outcome α} {a : α} (h : need l k f = .ok a) :
    ∃ j, values l k = [j] ∧ f j = .ok a := by
  unfold need at h
  split at h
  · next j hj => exact ⟨j, hj, h⟩
  · cases h

theorem may_ok {α : Type} {l : List (Str × Json)} {k : String} {d : α} {f : Json → Outcome α} {a : α}
    (h : may l k d f = .ok a) : (values l k = [] ∧ a = d) ∨ ∃ j, values l k = [j] ∧ f j = .ok a := by
  unfold may at h
  split at h
  · next hj => cases h; exact .inl ⟨hj, rfl⟩
  · next j hj => exact .inr ⟨j, hj, h⟩
  · cases h

theorem may_once {α : Type} {l : List (Str × Json)} {k : String} {d : α} {f : Json → Outcome α} {a : α}
    (h : may l k d f = .ok a) : (values l k).length ≤ 1 := by
  obtain ⟨h, -⟩ | ⟨j, h, -⟩ := may_ok h <;> simp [h]

theorem members_ok {α : Type} {f : List (Str × Json) → Outcome α} {j : Json} {a : α} (h : members f j = .ok a) :
    ∃ l, j = .obj l ∧ f l = .ok a := by
  unfold members at h
  split at h
  · exact ⟨_, rfl, h⟩
  · cases h

theorem dstr_ok {α : Type} {f : Str → Outcome α} {j : Json} {a : α} (h : dstr f j = .ok a) :
    ∃ s, j = .str s ∧ f s = .ok a := by
  unfold dstr at h
  split at h
  · exact ⟨_, rfl, h⟩
  · cases h

theorem darr_ok {α : Type} {f : Json → Outcome α} {j : Json} {l : List α} (h : darr f j = .ok l) :
    ∃ js, j = .arr js ∧ List.Forall₂ (fun x y => f x = .ok y) js l := by
  unfold darr at h
  split at h
  · exact ⟨_, rfl, (mapList_iff _ _ _).mp h⟩
  · cases h

theorem dopt_ok {α : Type} {f : Json → Outcome α} {j : Json} {o : Option α} (h : dopt f j = .ok o) :
    (j = .null ∧ o = none) ∨ ∃ a, o = some a ∧ f j = .ok a := by
  unfold dopt at h
  split at h
  · cases h; exact .inl ⟨rfl, rfl⟩
  · cases hf : f j with
    | ok a => rw [hf] at h; cases h; exact .inr ⟨a, rfl, rfl⟩
    | err => rw [hf] at h; cases h
    | panic => rw [hf] at h; cases h

theorem map_ok {α β : Type} {f : α → β} {x : Outcome α} {b : β} (h : Cvss.Outcome.map f x = .ok b) :
    ∃ a, x = .ok a ∧ f a = b := by
  cases x with
  | ok a => cases h; exact ⟨a, rfl, rfl⟩
  | err => cases h
  | panic => cases h

theorem dstrs_from {α : Type} {f : Str → Outcome α} {j : Json} {l : List α} (h : darr (dstr f) j = .ok l) :
    ∀ x ∈ l, FromText f x := by
  obtain ⟨js, -, h⟩ := darr_ok h
  intro x hx
  obtain ⟨y, -, hy⟩ := forall2_right h x hx
  obtain ⟨s, -, hs⟩ := dstr_ok hy
  exact ⟨s, hs⟩

theorem mays_from {α : Type} {f : Str → Outcome α} {t : List (Str × Json)} {k : String} {l : List α}
    (h : may t k [] (darr (dstr f)) = .ok l) : ∀ x ∈ l, FromText f x := by
  obtain ⟨-, rfl⟩ | ⟨j, -, h⟩ := may_ok h
  · simp
  · exact dstrs_from h

theorem mayopt_from {α : Type} {f : Str → Outcome α} {t : List (Str × Json)} {k : String} {o : Option α}
    (h : may t k none (dopt (dstr f)) = .ok o) : ∀ x, o = some x → FromText f x := by
  obtain ⟨-, rfl⟩ | ⟨j, -, h⟩ := may_ok h
  · simp
  · obtain ⟨-, rfl⟩ | ⟨a, rfl, h'⟩ := dopt_ok h
    · simp
    · rintro x ⟨⟩
      obtain ⟨s, -, hs⟩ := dstr_ok h'
      exact ⟨s, hs⟩

theorem ofOption_from {α : Type} {o : Option α} {a : α} (h : ofOption o = Outcome.ok a) : o = some a := by
  cases o with
  | none => cases h
  | some x => cases h; rfl

/-! ## The parts of what is read -/

theorem devent_known {j : Json} {e : OsvEvent} (h : devent j = .ok e) : KnownEvent j := by
  unfold devent at h
  split at h
  · next k v =>
    split at h
    · next hk =>
      obtain ⟨s, hs, -⟩ := map_ok h
      obtain ⟨t, rfl, -⟩ := dstr_ok hs
      exact ⟨"introduced", by simp, t, by rw [hk]⟩
    · split at h
      · next hk =>
        obtain ⟨s, hs, -⟩ := map_ok h
        obtain ⟨t, rfl, -⟩ := dstr_ok hs
        exact ⟨"fixed", by simp, t, by rw [hk]⟩
      · split at h
        · next hk =>
          obtain ⟨s, hs, -⟩ := map_ok h
          obtain ⟨t, rfl, -⟩ := dstr_ok hs
          exact ⟨"last_affected", by simp, t, by rw [hk]⟩
        · cases h
  · cases h

theorem fromName_known {s : Str} {k : OsvRefKind} (h : OsvRefKind.fromName s = some k) :
    ∃ n ∈ knownReferences, s = n.toList := by
  unfold OsvRefKind.fromName at h
  unfold knownReferences
  split at h
  · next hs => exact ⟨_, .head _, hs⟩
  · split at h
    · next hs => exact ⟨_, .tail _ (.head _), hs⟩
    · split at h
      · next hs => exact ⟨_, .tail _ (.tail _ (.head _)), hs⟩
      · split at h
        · next hs => exact ⟨_, .tail _ (.tail _ (.tail _ (.head _))), hs⟩
        · split at h
          · next hs => exact ⟨_, .tail _ (.tail _ (.tail _ (.tail _ (.head _)))), hs⟩
          · split at h
            · next hs => exact ⟨_, .tail _ (.tail _ (.tail _ (.tail _ (.tail _ (.head _))))), hs⟩
            · cases h

theorem dreference_inv {L : ReportLib} {j : Json} {r : OsvRef} (h : dreference L j = .ok r) :
    (∃ s, Url.parse L.adv.url s = some r.url) ∧
      ∃ k ∈ knownReferences, membersCalled "type" j = [.str k.toList] ∨ membersCalled "type" j = [.obj [(k.toList, .null)]] := by
  obtain ⟨t, rfl, h⟩ := members_ok h
  obtain ⟨kind, h1, h⟩ := bindOk h
  obtain ⟨url, h2, h⟩ := bindOk h
  cases h
  obtain ⟨k, hk, h1⟩ := need_ok h1
  obtain ⟨u, hu, h2⟩ := need_ok h2
  obtain ⟨s, -, hs⟩ := dstr_ok h2
  refine ⟨⟨s, ofOption_from hs⟩, ?_⟩
  have hm : membersCalled "type" (.obj t) = [k] := hk
  rw [hm]
  unfold drefKind at h1
  split at h1
  · obtain ⟨n, hn, rfl⟩ := fromName_known (ofOption_from h1)
    exact ⟨n, hn, .inl rfl⟩
  · obtain ⟨n, hn, rfl⟩ := fromName_known (ofOption_from h1)
    exact ⟨n, hn, .inr rfl⟩
  · cases h1

theorem dseverity_inv {j : Json} {r : OsvSeverity} (h : dseverity j = .ok r) :
    SeverityRead r ∧ ∃ k ∈ knownSeverities, membersCalled "type" j = [.str k.toList] := by
  obtain ⟨t, rfl, h⟩ := members_ok h
  obtain ⟨ty, h1, h⟩ := bindOk h
  obtain ⟨k, hk, h1⟩ := need_ok h1
  obtain ⟨s, rfl, hs⟩ := dstr_ok h1
  replace hs := Outcome.ok.inj hs
  subst hs
  obtain ⟨j, -, h⟩ := need_ok h
  have hm : membersCalled "type" (.obj t) = [.str s] := hk
  rw [hm]
  unfold dscore at h
  unfold knownSeverities
  split at h
  · next hs =>
    obtain ⟨x, -, h⟩ := dstr_ok h
    obtain ⟨v, hv, rfl⟩ := map_ok h
    exact ⟨⟨x, hv⟩, _, .head _, by rw [hs]⟩
  · split at h
    · next hs =>
      obtain ⟨x, -, h⟩ := dstr_ok h
      obtain ⟨v, hv, rfl⟩ := map_ok h
      exact ⟨⟨x, hv⟩, _, .tail _ (.head _), by rw [hs]⟩
    · split at h
      · next hs =>
        obtain ⟨x, -, h⟩ := dstr_ok h
        obtain ⟨v, hv, rfl⟩ := map_ok h
        exact ⟨⟨x, hv⟩, _, .tail _ (.tail _ (.head _)), by rw [hs]⟩
      · cases h

theorem decosystem_inv {j : Json} {e : OsvEcosystem} (h : decosystem j = .ok e) :
    (∀ x, e.affects = some x → ∀ p ∈ x.functions, FromText FunctionPath.fromStr p) ∧
      ∀ l, e.affectedFunctions = some l → ∀ p ∈ l, FromText FunctionPath.fromStr p := by
  obtain ⟨t, rfl, h⟩ := members_ok h
  obtain ⟨a, h1, h⟩ := bindOk h
  obtain ⟨f, h2, h⟩ := bindOk h
  cases h
  constructor
  · rintro x hx
    dsimp only at hx
    subst hx
    obtain ⟨-, h1⟩ | ⟨j, -, h1⟩ := may_ok h1
    · cases h1
    obtain ⟨-, h1⟩ | ⟨y, hy, h1⟩ := dopt_ok h1
    · cases h1
    cases hy
    obtain ⟨t', rfl, h1⟩ := members_ok h1
    obtain ⟨_, -, h1⟩ := bindOk h1
    obtain ⟨_, -, h1⟩ := bindOk h1
    obtain ⟨fs, h3, h1⟩ := bindOk h1
    cases h1
    obtain ⟨_, -, h3⟩ := need_ok h3
    exact dstrs_from h3
  · rintro x hx
    dsimp only at hx
    subst hx
    obtain ⟨-, h1⟩ | ⟨j, -, h1⟩ := may_ok h2
    · cases h1
    obtain ⟨-, h1⟩ | ⟨y, hy, h1⟩ := dopt_ok h1
    · cases h1
    cases hy
    exact dstrs_from h1

theorem daffectedFile_inv {j : Json} {a : OsvAffectedFile} (h : daffectedFile j = .ok a) :
    AffectedFileRead a ∧
    (∃ p, membersCalled "package" j = [p] ∧ ∀ k ∈ ["ecosystem", "name"], ∃ s, membersCalled k p = [.str s]) ∧
    (∃ l, membersCalled "database_specific" j = [.obj l]) ∧
    ∀ rs ∈ membersCalled "ranges" j, ∀ r ∈ itemsOf rs,
      ∃ es, membersCalled "events" r = [.arr es] ∧ ∀ e ∈ es, KnownEvent e := by
  obtain ⟨t, rfl, h⟩ := members_ok h
  obtain ⟨package, h1, h⟩ := bindOk h
  obtain ⟨eco, h2, h⟩ := bindOk h
  obtain ⟨db, h3, h⟩ := bindOk h
  obtain ⟨ranges, h4, h⟩ := bindOk h
  obtain ⟨versions, -, h⟩ := bindOk h
  cases h
  obtain ⟨d, hd, h3⟩ := need_ok h3
  obtain ⟨td, rfl, h3⟩ := members_ok h3
  obtain ⟨categories, d1, h3⟩ := bindOk h3
  obtain ⟨cvss, d2, h3⟩ := bindOk h3
  obtain ⟨informational, d3, h3⟩ := bindOk h3
  cases h3
  obtain ⟨p, hp, h1⟩ := need_ok h1
  obtain ⟨tp, rfl, h1⟩ := members_ok h1
  obtain ⟨ec, p1, h1⟩ := bindOk h1
  obtain ⟨nm, p2, h1⟩ := bindOk h1
  refine ⟨⟨?_, ?_, mayopt_from d2, ?_⟩, ⟨_, hp, ?_⟩, ⟨td, hd⟩, ?_⟩
  · rintro e he
    dsimp only at he
    subst he
    obtain ⟨-, h2⟩ | ⟨j, -, h2⟩ := may_ok h2
    · cases h2
    obtain ⟨-, h2⟩ | ⟨y, hy, h2⟩ := dopt_ok h2
    · cases h2
    cases hy
    exact decosystem_inv h2
  · intro c hc
    obtain ⟨s, hs⟩ := mays_from d1 c hc
    exact ⟨s, Outcome.ok.inj hs⟩
  · intro c hc
    obtain ⟨s, hs⟩ := mayopt_from d3 c hc
    exact ⟨s, Outcome.ok.inj hs⟩
  · intro k hk
    simp only [List.mem_cons, List.not_mem_nil, or_false] at hk
    rcases hk with rfl | rfl
    · obtain ⟨j, hj, p1⟩ := need_ok p1
      obtain ⟨s, rfl, -⟩ := dstr_ok p1
      exact ⟨s, hj⟩
    · obtain ⟨j, hj, p2⟩ := need_ok p2
      obtain ⟨s, rfl, -⟩ := dstr_ok p2
      exact ⟨s, hj⟩
  · intro rs hrs r hr
    have hv : rs ∈ values t "ranges" := hrs
    obtain ⟨h0, -⟩ | ⟨j, hj, h4⟩ := may_ok h4
    · rw [h0] at hv; cases hv
    rw [hj] at hv
    simp only [List.mem_cons, List.not_mem_nil, or_false] at hv
    subst hv
    obtain ⟨rfl, -⟩ | ⟨y, -, h4⟩ := dopt_ok h4
    · cases hr
    obtain ⟨js, rfl, h4'⟩ := darr_ok h4
    obtain ⟨x, -, hx⟩ := forall2_left h4' hr
    obtain ⟨tr, rfl, hx'⟩ := members_ok hx
    obtain ⟨_, -, hx⟩ := bindOk hx'
    obtain ⟨es, he, hx⟩ := bindOk hx
    obtain ⟨j, hj, he⟩ := need_ok he
    obtain ⟨js', rfl, he'⟩ := darr_ok he
    refine ⟨js', hj, fun e hm => ?_⟩
    obtain ⟨_, -, h⟩ := forall2_left he' hm
    exact devent_known h

/-- The fields of a record that is read. -/
theorem deserialize_inv {L : ReportLib} {t : List (Str × Json)} {o : OsvFile} (h : OsvFile.deserialize L (.obj t) = .ok o) :
    may t "schema_version" none (dopt (dversion L)) = .ok o.schemaVersion ∧
    need t "id" (dstr Id.fromStr) = .ok o.id ∧
    need t "modified" (dstr .ok) = .ok o.modified ∧
    need t "published" (dstr .ok) = .ok o.published ∧
    may t "withdrawn" none (dopt (dstr .ok)) = .ok o.withdrawn ∧
    may t "aliases" [] (darr (dstr Id.fromStr)) = .ok o.aliases ∧
    may t "related" [] (darr (dstr Id.fromStr)) = .ok o.related ∧
    need t "summary" (dstr .ok) = .ok o.summary ∧
    need t "details" (dstr .ok) = .ok o.details ∧
    may t "severity" [] (darr dseverity) = .ok o.severity ∧
    may t "affected" [] (darr daffectedFile) = .ok o.affected ∧
    may t "references" [] (darr (dreference L)) = .ok o.references ∧
    may t "database_specific" none (members fun d => may d "license" none (dopt (dstr .ok))) = .ok o.license := by
  unfold OsvFile.deserialize members at h
  obtain ⟨_, h1, h⟩ := bindOk h
  obtain ⟨_, h2, h⟩ := bindOk h
  obtain ⟨_, h3, h⟩ := bindOk h
  obtain ⟨_, h4, h⟩ := bindOk h
  obtain ⟨_, h5, h⟩ := bindOk h
  obtain ⟨_, h6, h⟩ := bindOk h
  obtain ⟨_, h7, h⟩ := bindOk h
  obtain ⟨_, h8, h⟩ := bindOk h
  obtain ⟨_, h9, h⟩ := bindOk h
  obtain ⟨_, h10, h⟩ := bindOk h
  obtain ⟨_, h11, h⟩ := bindOk h
  obtain ⟨_, h12, h⟩ := bindOk h
  obtain ⟨_, h13, h⟩ := bindOk h
  cases h
  exact ⟨h1, h2, h3, h4, h5, h6, h7, h8, h9, h10, h11, h12, h13⟩

/-- **C82, what is read was text.**  Whatever is read from JSON consists of parts that were read from text. -/
theorem C82_read (L : ReportLib) (j : Json) (o : OsvFile) (h : OsvFile.deserialize L j = .ok o) : OsvFileRead L o := by
  obtain ⟨t, rfl, -⟩ := members_ok h
  obtain ⟨h1, h2, -, -, -, h6, h7, -, -, h10, h11, h12, -⟩ := deserialize_inv h
  refine ⟨?_, ?_, mays_from h6, mays_from h7, ?_, ?_, ?_⟩
  · intro v hv
    obtain ⟨s, hs⟩ := mayopt_from h1 v hv
    exact ⟨s, ofOption_from hs⟩
  · obtain ⟨j, -, h2⟩ := need_ok h2
    obtain ⟨s, -, hs⟩ := dstr_ok h2
    exact ⟨s, hs⟩
  · intro s hs
    obtain ⟨-, h⟩ | ⟨j, -, h⟩ := may_ok h10
    · rw [h] at hs; cases hs
    · obtain ⟨js, -, h⟩ := darr_ok h
      obtain ⟨x, -, hx⟩ := forall2_right h s hs
      exact (dseverity_inv hx).1
  · intro s hs
    obtain ⟨-, h⟩ | ⟨j, -, h⟩ := may_ok h11
    · rw [h] at hs; cases hs
    · obtain ⟨js, -, h⟩ := darr_ok h
      obtain ⟨x, -, hx⟩ := forall2_right h s hs
      exact (daffectedFile_inv hx).1
  · intro s hs
    obtain ⟨-, h⟩ | ⟨j, -, h⟩ := may_ok h12
    · rw [h] at hs; cases hs
    · obtain ⟨js, -, h⟩ := darr_ok h
      obtain ⟨x, -, hx⟩ := forall2_right h s hs
      exact (dreference_inv hx).1

/-- **C82, stability.**  Any record that is read from JSON is read again, unchanged, from what is written for it. -/
theorem C82_stable {L : ReportLib} (hL : ReportLib.Lawful L) {j : Json} {o : OsvFile} (h : OsvFile.deserialize L j = .ok o) :
    OsvFile.deserialize L (o.serialize L) = .ok o := C82_round_trip hL (C82_read L j o h)

theorem may_item {α : Type} {l : List (Str × Json)} {k : String} {f : Json → Outcome α} {a : List α}
    (h : may l k [] (darr f) = .ok a) {v : Json} (hv : v ∈ membersCalled k (.obj l)) {x : Json} (hx : x ∈ itemsOf v) :
    ∃ y, f x = .ok y := by
  have hv' : v ∈ values l k := hv
  obtain ⟨h0, -⟩ | ⟨j, hj, h⟩ := may_ok h
  · rw [h0] at hv'; cases hv'
  rw [hj] at hv'
  simp only [List.mem_cons, List.not_mem_nil, or_false] at hv'
  subst hv'
  obtain ⟨js, rfl, h'⟩ := darr_ok h
  obtain ⟨y, -, hy⟩ := forall2_left h' hx
  exact ⟨y, hy⟩

theorem need_str {α : Type} {l : List (Str × Json)} {k : String} {f : Str → Outcome α} {a : α}
    (h : need l k (dstr f) = .ok a) : ∃ s, membersCalled k (.obj l) = [.str s] := by
  obtain ⟨j, hj, h⟩ := need_ok h
  obtain ⟨s, rfl, -⟩ := dstr_ok h
  exact ⟨s, hj⟩

/-- **C82, what must be there.**  A record is read only if it has each of `id`, `modified`, `published`, `summary` and
`details` exactly once and as a string, no known member twice, in each affected package a package and a `database_specific`
object, and only the events, reference types and severity types that this program knows. -/
theorem C82_readable (L : ReportLib) (j : Json) (o : OsvFile) (h : OsvFile.deserialize L j = .ok o) : Readable j := by
  obtain ⟨t, rfl, -⟩ := members_ok h
  obtain ⟨h1, h2, h3, h4, h5, h6, h7, h8, h9, h10, h11, h12, h13⟩ := deserialize_inv h
  have hn : ∀ {α : Type} {k : String} {f : Str → Outcome α} {a : α}, need t k (dstr f) = .ok a →
      (membersCalled k (.obj t)).length ≤ 1 := fun h => by
    obtain ⟨s, hs⟩ := need_str h
    simp [hs]
  refine ⟨?_, ?_, ?_, ?_, ?_, ?_⟩
  · intro k hk
    unfold osvMembers at hk
    simp only [List.mem_cons, List.not_mem_nil, or_false] at hk
    rcases hk with rfl | rfl | rfl | rfl | rfl | rfl | rfl | rfl | rfl | rfl | rfl | rfl | rfl
    exacts [may_once h1, hn h2, hn h3, hn h4, may_once h5, may_once h6, may_once h7, hn h8, hn h9, may_once h10, may_once h11,
      may_once h12, may_once h13]
  · intro k hk
    simp only [List.mem_cons, List.not_mem_nil, or_false] at hk
    rcases hk with rfl | rfl | rfl | rfl | rfl
    exacts [need_str h2, need_str h3, need_str h4, need_str h8, need_str h9]
  · intro v hv a ha
    obtain ⟨y, hy⟩ := may_item h11 hv ha
    exact ⟨(daffectedFile_inv hy).2.1, (daffectedFile_inv hy).2.2.1⟩
  · intro v hv a ha
    obtain ⟨y, hy⟩ := may_item h11 hv ha
    exact (daffectedFile_inv hy).2.2.2
  · intro v hv a ha
    obtain ⟨y, hy⟩ := may_item h12 hv ha
    exact (dreference_inv hy).2
  · intro v hv a ha
    obtain ⟨y, hy⟩ := may_item h10 hv ha
    exact (dseverity_inv hy).2

/-- **C82, order.**  The order of the members of a record has no influence. -/
theorem C82_order (L : ReportLib) (l l' : List (Str × Json)) (h : l.Perm l') :
    OsvFile.deserialize L (.obj l) = OsvFile.deserialize L (.obj l') := by
  unfold OsvFile.deserialize members
  simp only [need_perm h, may_perm h]

theorem values_filter {l : List (Str × Json)} {ks : List String} {k : String} (hk : k ∈ ks) :
    values (l.filter fun e => decide (∃ n ∈ ks, e.1 = n.toList)) k = values l k := by
  unfold values
  rw [List.filter_filter]
  congr 1
  refine List.filter_congr fun e _ => ?_
  by_cases he : e.1 = k.toList
  · simp [he]
    exact ⟨k, hk, rfl⟩
  · simp [he]

/-- **C82, unknown members.**  Members that this program does not know have no influence. -/
theorem C82_unknown (L : ReportLib) (l : List (Str × Json)) :
    OsvFile.deserialize L (.obj (l.filter fun e => decide (∃ n ∈ osvMembers, e.1 = n.toList))) =
      OsvFile.deserialize L (.obj l) := by
  have hv : ∀ k ∈ osvMembers, values (l.filter fun e => decide (∃ n ∈ osvMembers, e.1 = n.toList)) k = values l k :=
    fun k hk => values_filter hk
  have hn : ∀ {α : Type} (k : String) (f : Json → Outcome α), k ∈ osvMembers →
      need (l.filter fun e => decide (∃ n ∈ osvMembers, e.1 = n.toList)) k f = need l k f := fun k f hk => by
    unfold need; rw [hv k hk]
  have hm : ∀ {α : Type} (k : String) (d : α) (f : Json → Outcome α), k ∈ osvMembers →
      may (l.filter fun e => decide (∃ n ∈ osvMembers, e.1 = n.toList)) k d f = may l k d f := fun k d f hk => by
    unfold may; rw [hv k hk]
  unfold OsvFile.deserialize members
  simp only
  rw [hm "schema_version" _ _ (by decide), hn "id" _ (by decide), hn "modified" _ (by decide), hn "published" _ (by decide),
    hm "withdrawn" _ _ (by decide), hm "aliases" _ _ (by decide), hm "related" _ _ (by decide), hn "summary" _ (by decide),
    hn "details" _ (by decide), hm "severity" _ _ (by decide), hm "affected" _ _ (by decide),
    hm "references" _ _ (by decide), hm "database_specific" _ _ (by decide)]

theorem members_obj {α : Type} (f : List (Str × Json) → Outcome α) (l : List (Str × Json)) : members f (.obj l) = f l := rfl

theorem need_ok_iff {α : Type} {l : List (Str × Json)} {k : String} {f : Json → Outcome α} {a : α} :
    need l k f = .ok a ↔ ∃ j, values l k = [j] ∧ f j = .ok a := by
  refine ⟨need_ok, ?_⟩
  rintro ⟨j, hj, h⟩
  unfold need
  rw [hj]
  exact h

theorem values_without {l : List (Str × Json)} {k k' : String} :
    values (l.filter fun e => decide (e.1 ≠ k.toList)) k' = if k'.toList = k.toList then [] else values l k' := by
  unfold values
  rw [List.filter_filter]
  split
  · next h =>
    rw [List.map_eq_nil_iff, List.filter_eq_nil_iff]
    simp [h]
  · next h =>
    congr 1
    refine List.filter_congr fun e _ => ?_
    by_cases he : e.1 = k'.toList
    · simp [he, h]
    · simp [he]

theorem need_without {α : Type} {l : List (Str × Json)} {k k' : String} {f : Json → Outcome α} {a : α}
    (hk : k'.toList ≠ k.toList) (h : need l k' f = .ok a) :
    need (l.filter fun e => decide (e.1 ≠ k.toList)) k' f = .ok a := by
  rw [need_ok_iff, values_without, if_neg hk, ← need_ok_iff]
  exact h

theorem may_without {α : Type} {l : List (Str × Json)} {k k' : String} {d : α} {f : Json → Outcome α} {a : α}
    (h : may l k' d f = .ok a) :
    may (l.filter fun e => decide (e.1 ≠ k.toList)) k' d f = .ok (if k'.toList = k.toList then d else a) := by
  unfold may at h ⊢
  rw [values_without]
  by_cases hk : k'.toList = k.toList
  · rw [if_pos hk, if_pos hk]
  · rw [if_neg hk, if_neg hk]
    exact h

/-- **C82, optional members of a record.**  Every member but `id`, `modified`, `published`, `summary` and `details` may be
left out: the record is still read, that member's field gets its default and the others stay as they are. -/
theorem C82_optional (L : ReportLib) (l : List (Str × Json)) (o : OsvFile) (h : OsvFile.deserialize L (.obj l) = .ok o)
    (k : String) (hk : k ∉ ["id", "modified", "published", "summary", "details"]) :
    OsvFile.deserialize L (.obj (l.filter fun e => decide (e.1 ≠ k.toList))) = .ok
      { o with
        schemaVersion := if k = "schema_version" then none else o.schemaVersion
        withdrawn := if k = "withdrawn" then none else o.withdrawn
        aliases := if k = "aliases" then [] else o.aliases
        related := if k = "related" then [] else o.related
        severity := if k = "severity" then [] else o.severity
        affected := if k = "affected" then [] else o.affected
        references := if k = "references" then [] else o.references
        license := if k = "database_specific" then none else o.license } := by
  obtain ⟨h1, h2, h3, h4, h5, h6, h7, h8, h9, h10, h11, h12, h13⟩ := deserialize_inv h
  simp only [List.mem_cons, List.not_mem_nil, or_false, not_or] at hk
  have hl : ∀ k' : String, (k'.toList = k.toList) = (k = k') := by
    intro k'
    rw [String.toList_inj]
    exact propext eq_comm
  have hn : ∀ k' : String, ¬ k = k' → k'.toList ≠ k.toList := fun k' h h' => h (by rwa [hl] at h')
  have m1 := may_without (k := k) h1
  have m5 := may_without (k := k) h5
  have m6 := may_without (k := k) h6
  have m7 := may_without (k := k) h7
  have m10 := may_without (k := k) h10
  have m11 := may_without (k := k) h11
  have m12 := may_without (k := k) h12
  have m13 := may_without (k := k) h13
  unfold OsvFile.deserialize
  rw [members_obj]
  simp only [m1, m5, m6, m7, m10, m11, m12, m13, need_without (hn _ hk.1) h2, need_without (hn _ hk.2.1) h3,
    need_without (hn _ hk.2.2.1) h4, need_without (hn _ hk.2.2.2.1) h8, need_without (hn _ hk.2.2.2.2) h9, Outcome.bind_ok]
  simp only [hl]

/-- **C82, optional members of an affected package.**  Likewise, only `package` and `database_specific` are needed. -/
theorem C82_optional_affected (l : List (Str × Json)) (a : OsvAffectedFile) (h : daffectedFile (.obj l) = .ok a)
    (k : String) (hk : k ∉ ["package", "database_specific"]) :
    daffectedFile (.obj (l.filter fun e => decide (e.1 ≠ k.toList))) = .ok
      { a with
        ecosystemSpecific := if k = "ecosystem_specific" then none else a.ecosystemSpecific
        ranges := if k = "ranges" then none else a.ranges
        versions := if k = "versions" then none else a.versions } := by
  unfold daffectedFile members at h
  obtain ⟨_, h1, h⟩ := bindOk h
  obtain ⟨_, h2, h⟩ := bindOk h
  obtain ⟨_, h3, h⟩ := bindOk h
  obtain ⟨_, h4, h⟩ := bindOk h
  obtain ⟨_, h5, h⟩ := bindOk h
  cases h
  simp only [List.mem_cons, List.not_mem_nil, or_false, not_or] at hk
  have hl : ∀ k' : String, (k'.toList = k.toList) = (k = k') := by
    intro k'
    rw [String.toList_inj]
    exact propext eq_comm
  have hn : ∀ k' : String, ¬ k = k' → k'.toList ≠ k.toList := fun k' h h' => h (by rwa [hl] at h')
  unfold daffectedFile members
  simp only [may_without (k := k) h2, may_without (k := k) h4, may_without (k := k) h5, need_without (hn _ hk.1) h1,
    need_without (hn _ hk.2) h3, Outcome.bind_ok]
  simp only [hl]

end Verif.Props
