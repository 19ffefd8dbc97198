import Verif.Lemmas.OsvEvents

/-!
# C01-C09: version ranges of an advisory

`Versions.new`, `Versions.isVulnerable`, `rangesForAdvisory`, `osvTimeline` are the model of the public
API; `Covers`, `Supported`, `Apart`, `PointThenOpen`, `evalEvents` are the specification
(`Verif/Spec/Versions.lean`).  `ReqWF` says that a requirement has a shape the `semver` parser produces.
-/

namespace Verif.Props

open Verif.Semver Verif.Osv Verif.Spec

/-! ### Auxiliary: acceptance gives ordered ranges -/

private theorem accepted {patched unaffected : List VersionReq} {vs : Versions}
    (hwf : ∀ r ∈ patched ++ unaffected, ReqWF r) (h : Versions.new patched unaffected = .ok vs) :
    vs = ⟨patched, unaffected⟩ ∧ ∃ l rs, l.Perm ((unaffected ++ patched).map toRange) ∧ l.Pairwise Before ∧
      (∀ r ∈ l, r.Valid) ∧ complement l = .ok rs ∧ rangesForAdvisory vs = .ok rs ∧
      (∀ r ∈ unaffected ++ patched, Supported r) := by
  have hwf' : ∀ r ∈ unaffected ++ patched, ReqWF r := by
    intro r hr; apply hwf; simp only [List.mem_append] at *; exact hr.symm
  unfold Versions.new at h
  rcases unaffected_spec unaffected patched hwf' with ⟨_, e⟩ | ⟨_, _, e⟩ | ⟨ha, _, l, rs, h1, h2, h3, h4, h5⟩
  · rw [e] at h; cases h
  · rw [e] at h; cases h
  · rw [h5, Outcome.bind_ok, Outcome.ok.injEq] at h
    subst h
    exact ⟨rfl, l, rs, h1, h2, h3, h4, by simp [rangesForAdvisory, h5], ha.1⟩

/-- **C01.** For accepted requirement lists, `is_vulnerable w` returns (does not panic), and it returns
`true` exactly when no patched or unaffected requirement covers `w`. -/
theorem C01_is_vulnerable_iff (patched unaffected : List VersionReq) (vs : Versions)
    (hwf : ∀ r ∈ patched ++ unaffected, ReqWF r) (h : Versions.new patched unaffected = .ok vs)
    (w : Version) :
    ∃ b, vs.isVulnerable w = .ok b ∧ (b = true ↔ ∀ r ∈ patched ++ unaffected, ¬ Covers r w) := by
  obtain ⟨rfl, l, rs, hperm, hbef, hval, hc, hra, hsup⟩ := accepted hwf h
  refine ⟨_, by rw [Versions.isVulnerable, hra, Outcome.bind_ok], ?_⟩
  obtain ⟨rs', hrs', hspec⟩ := complement_spec l hval hbef
  rw [hc, Outcome.ok.injEq] at hrs'
  subst hrs'
  have hok := complement_ok l hval hbef hc
  have hstrip : rs.any (fun r => r.affects w) = rs.any (fun r => r.affects w.strip) := by
    rw [Bool.eq_iff_iff, List.any_eq_true, List.any_eq_true]
    constructor <;> rintro ⟨r, hr, ha⟩ <;> refine ⟨r, hr, ?_⟩ <;>
      have := affects_strip (hok.bfi r hr) (hok.bff r hr) w <;> simp_all
  rw [hstrip, hspec w.strip rfl]
  constructor
  · intro hn r hr hcov
    have hr' : r ∈ unaffected ++ patched := by simp only [List.mem_append] at *; exact hr.symm
    exact hn (toRange r) (hperm.mem_iff.mpr (List.mem_map_of_mem hr')) ((mem_toRange (hsup r hr') w).mpr hcov)
  · intro hn b hb hmem
    obtain ⟨r, hr, rfl⟩ := List.mem_map.mp (hperm.mem_iff.mp hb)
    refine hn r ?_ ((mem_toRange (hsup r hr) w).mp hmem)
    simp only [List.mem_append] at *; exact hr.symm

/-- Concrete requirements used in the examples below. -/
def req (op : Op) (a b c : Nat) (pre : Pre := []) : VersionReq :=
  ⟨[{ op, major := a, minor := some b, patch := some c, pre }]⟩

/-- `>= a.b.c, < d.e.f`. -/
def reqBetween (a b c d e f : Nat) : VersionReq :=
  ⟨[{ op := .greaterEq, major := a, minor := some b, patch := some c },
    { op := .less, major := d, minor := some e, patch := some f }]⟩

/-- Non-vacuity: `patched = [">=1.2.3"]`, `unaffected = ["<0.5.0", ">=0.9.0, <1.0.0"]` is accepted;
0.7.0 and 1.2.3-alpha are vulnerable, 1.2.3, 0.4.0 and 0.9.5 are not. -/
example :
    let p := [req .greaterEq 1 2 3]
    let u := [req .less 0 5 0, reqBetween 0 9 0 1 0 0]
    (∀ r ∈ p ++ u, ReqWF r) ∧ Versions.new p u = .ok ⟨p, u⟩ ∧
    Versions.isVulnerable ⟨p, u⟩ (.release 0 7 0) = .ok true ∧
    Versions.isVulnerable ⟨p, u⟩ { major := 1, minor := 2, patch := 3, pre := [.alpha ['a']] } = .ok true ∧
    Versions.isVulnerable ⟨p, u⟩ (.release 1 2 3) = .ok false ∧
    Versions.isVulnerable ⟨p, u⟩ (.release 0 4 0) = .ok false ∧
    Versions.isVulnerable ⟨p, u⟩ (.release 0 9 5) = .ok false := by
  decide +kernel

/-- **C02 (acceptance).** `Versions::new` returns `Ok` exactly when every requirement is supported, all
intervals are apart, and there is no pair "just `v`" / "strictly after `v`". -/
theorem C02_ok_iff (patched unaffected : List VersionReq) (hwf : ∀ r ∈ patched ++ unaffected, ReqWF r) :
    Versions.new patched unaffected = .ok ⟨patched, unaffected⟩ ↔
      (∀ r ∈ patched ++ unaffected, Supported r) ∧ (unaffected ++ patched).Pairwise Apart ∧
      ¬ ∃ a ∈ patched ++ unaffected, ∃ b ∈ patched ++ unaffected, PointThenOpen a b := by
  have hmem : ∀ r, r ∈ patched ++ unaffected ↔ r ∈ unaffected ++ patched := by
    intro r; simp only [List.mem_append]; exact or_comm
  simp only [hmem] at hwf ⊢
  unfold Versions.new
  rcases unaffected_spec unaffected patched hwf with ⟨ha, e⟩ | ⟨ha, hp, e⟩ | ⟨ha, hp, l, rs, _, _, _, _, e⟩
  · rw [e, Outcome.bind_err]
    exact ⟨fun h => (nomatch h), fun h => absurd ⟨h.1, h.2.1⟩ ha⟩
  · rw [e, Outcome.bind_panic]
    exact ⟨fun h => (nomatch h), fun h => absurd hp h.2.2⟩
  · rw [e, Outcome.bind_ok]
    exact ⟨fun _ => ⟨ha.1, ha.2, hp⟩, fun _ => rfl⟩

/-- **C02 (panic).** `Versions::new` panics exactly on lists that are acceptable except for a pair
"just `v`" / "strictly after `v`". -/
theorem C02_panic_iff (patched unaffected : List VersionReq) (hwf : ∀ r ∈ patched ++ unaffected, ReqWF r) :
    Versions.new patched unaffected = .panic ↔
      (∀ r ∈ patched ++ unaffected, Supported r) ∧ (unaffected ++ patched).Pairwise Apart ∧
      ∃ a ∈ patched ++ unaffected, ∃ b ∈ patched ++ unaffected, PointThenOpen a b := by
  have hmem : ∀ r, r ∈ patched ++ unaffected ↔ r ∈ unaffected ++ patched := by
    intro r; simp only [List.mem_append]; exact or_comm
  simp only [hmem] at hwf ⊢
  unfold Versions.new
  rcases unaffected_spec unaffected patched hwf with ⟨ha, e⟩ | ⟨ha, hp, e⟩ | ⟨ha, hp, l, rs, _, _, _, _, e⟩
  · rw [e, Outcome.bind_err]
    exact ⟨fun h => (nomatch h), fun h => absurd ⟨h.1, h.2.1⟩ ha⟩
  · rw [e, Outcome.bind_panic]
    exact ⟨fun _ => ⟨ha.1, ha.2, hp⟩, fun _ => rfl⟩
  · rw [e, Outcome.bind_ok]
    exact ⟨fun h => (nomatch h), fun h => absurd h.2.2 hp⟩

/-- **C02 (no later panic).** Once accepted, neither `is_vulnerable` nor `ranges_for_advisory` panics or
fails. -/
theorem C02_accepted_never_panics (patched unaffected : List VersionReq) (vs : Versions)
    (hwf : ∀ r ∈ patched ++ unaffected, ReqWF r) (h : Versions.new patched unaffected = .ok vs) :
    (∃ rs, rangesForAdvisory vs = .ok rs) ∧ ∀ w, ∃ b, vs.isVulnerable w = .ok b := by
  obtain ⟨rfl, l, rs, _, _, _, _, hra, _⟩ := accepted hwf h
  exact ⟨⟨rs, hra⟩, fun w => ⟨_, by rw [Versions.isVulnerable, hra, Outcome.bind_ok]⟩⟩

/-- The panic is reachable: `patched = [">1.0.0"]`, `unaffected = ["=1.0.0"]`, although no version is in
both requirements. -/
theorem C02_panic_witness :
    (∀ r ∈ [req .greater 1 0 0] ++ [req .exact 1 0 0], ReqWF r) ∧
    Versions.new [req .greater 1 0 0] [req .exact 1 0 0] = .panic := by decide +kernel

/-- Overlap and reversed bounds are errors, not panics. -/
example : Versions.new [req .greaterEq 1 0 0] [req .lessEq 1 0 0] = .err ∧
    Versions.new [reqBetween 2 0 0 1 0 0] [] = .err ∧
    Versions.new [⟨[{ op := .wildcard, major := 1 }]⟩] [] = .err := by decide +kernel

/-- **C03.** The ranges of an accepted advisory are listed left to right and pairwise disjoint. -/
theorem C03_ranges_ordered (patched unaffected : List VersionReq) (vs : Versions)
    (hwf : ∀ r ∈ patched ++ unaffected, ReqWF r) (h : Versions.new patched unaffected = .ok vs) :
    ∃ rs, rangesForAdvisory vs = .ok rs ∧ OrderedRanges rs := by
  obtain ⟨rfl, l, rs, _, hbef, hval, hc, hra, _⟩ := accepted hwf h
  have hok := complement_ok l hval hbef hc
  refine ⟨rs, hra, ?_, ?_⟩
  · refine List.Pairwise.imp_of_mem ?_ hok.pw
    rintro a b ha hb ⟨e, s, h1, h2, h3⟩
    refine ⟨e, s, h1, h2, ?_⟩
    rw [precLE_iff, Version.strip_eq (hok.bff a ha e h1), Version.strip_eq (hok.bfi b hb s h2)]
    exact h3
  · intro r hr s e h1 h2
    rw [precLE_iff, Version.strip_eq (hok.bfi r hr s h1), Version.strip_eq (hok.bff r hr e h2)]
    exact hok.ordered r hr s e h1 h2

example : rangesForAdvisory ⟨[req .greaterEq 1 2 3], [req .lessEq 0 5 0, req .caret 0 9 1]⟩ = .ok
    [⟨some { major := 0, minor := 5, patch := 1, pre := [.num 0] }, some (.release 0 9 1)⟩,
     ⟨some { major := 0, minor := 10, patch := 0, pre := [.num 0] }, some (.release 1 2 3)⟩] := by
  decide +kernel

/-- **C04.** When the OSV exporter produces a timeline (`OsvJsonRange::new` does not panic), its events are
in version order and evaluating them as the OSV specification says gives exactly `is_vulnerable`. -/
theorem C04_timeline_means_is_vulnerable (patched unaffected : List VersionReq) (vs : Versions)
    (hwf : ∀ r ∈ patched ++ unaffected, ReqWF r) (h : Versions.new patched unaffected = .ok vs)
    (events : List TimelineEvent) (he : osvTimeline vs = .ok events) :
    events.Pairwise (fun a b => PrecLE (eventVersion a) (eventVersion b)) ∧
    ∀ w, vs.isVulnerable w = .ok (evalEvents w events false) := by
  obtain ⟨rfl, l, rs, _, hbef, hval, hc, hra, _⟩ := accepted hwf h
  have hok := complement_ok l hval hbef hc
  rw [osvTimeline, hra, Outcome.bind_ok] at he
  split at he
  · cases he
  · rw [Outcome.ok.injEq] at he
    subst he
    refine ⟨events_sorted rs hok, fun w => ?_⟩
    rw [Versions.isVulnerable, hra, Outcome.bind_ok, eval_ranges w rs hok]

/-- The only accepted input on which the exporter panics is one that affects no version at all through a
`*` requirement: a single requirement that is open on both sides. -/
theorem C04_export_panics_iff (patched unaffected : List VersionReq) (vs : Versions)
    (hwf : ∀ r ∈ patched ++ unaffected, ReqWF r) (h : Versions.new patched unaffected = .ok vs) :
    osvTimeline vs = .panic ↔ patched ++ unaffected = [⟨[]⟩] := by
  obtain ⟨rfl, l, rs, hperm, hbef, hval, hc, hra, hsup⟩ := accepted hwf h
  have hopen : ∀ r, Supported r → lowEnd r = none → highEnd r = none → r = ⟨[]⟩ := by
    rintro ⟨cs⟩ hs h1 h2
    match cs with
    | [] => rfl
    | [c] => cases hop : c.op <;> simp_all [lowEnd, highEnd, Supported]
    | [a, b] =>
      rcases hs with ⟨ha | ha, hb | hb, -⟩ | ⟨ha | ha, hb | hb, -⟩ <;> simp [lowEnd, ha, hb] at h1
    | _ :: _ :: _ :: _ => exact hs.elim
  have hrs : osvTimeline ⟨patched, unaffected⟩ = .panic ↔ rs = [] := by
    rw [osvTimeline, hra, Outcome.bind_ok]
    cases rs <;> simp
  rw [hrs]
  constructor
  · rintro rfl
    match l, hperm, hbef, hc with
    | [], _, _, hc => simp [complement] at hc
    | [a], hperm, _, hc =>
      obtain ⟨q, hq, hqa⟩ : ∃ q, unaffected ++ patched = [q] ∧ toRange q = a := by
        have hl : (unaffected ++ patched).length = 1 := by simpa using hperm.length_eq.symm
        obtain ⟨q, hq⟩ := List.length_eq_one_iff.mp hl
        refine ⟨q, hq, ?_⟩
        rw [hq] at hperm
        simpa [eq_comm] using hperm
      have hstart : a.start = .unbounded ∧ a.fin = .unbounded := by
        obtain ⟨s, f⟩ := a
        cases s <;> cases f <;> simp [complement, complementFrom, leading, trailing] at hc ⊢
      have hqs := hsup q (by rw [hq]; simp)
      subst hqa
      have hb : ∀ o, boundOf o = .unbounded → o = none := by
        rintro (_ | ⟨v, _ | _⟩) <;> simp [boundOf]
      have : q = ⟨[]⟩ := hopen q hqs (hb _ hstart.1) (hb _ hstart.2)
      subst this
      rcases unaffected with _ | ⟨u, us⟩
      · simpa using hq
      · simp at hq; obtain ⟨rfl, rfl, rfl⟩ := hq; rfl
    | a :: b :: rest, _, hbef, hc =>
      exfalso
      have hbe := (List.pairwise_cons.mp hbef).1 b (by simp)
      obtain ⟨r, hr⟩ := before_between hbe
      rw [complement, complementFrom, hr] at hc
      simp only at hc
      cases hcf : complementFrom b rest with
      | ok x => rw [hcf] at hc; simp at hc
      | err => rw [hcf] at hc; simp at hc
      | panic => rw [hcf] at hc; simp at hc
  · intro heq
    have hue : unaffected ++ patched = [⟨[]⟩] := by
      rcases patched with _ | ⟨p, ps⟩
      · simpa using heq
      · simp at heq; obtain ⟨rfl, rfl, rfl⟩ := heq; rfl
    rw [hue] at hperm
    have : l = [toRange ⟨[]⟩] := by simpa using hperm
    subst this
    simpa [complement, complementFrom, leading, trailing, toRange, lowEnd, highEnd, boundOf] using hc.symm

example : Versions.new [⟨[]⟩] [] = .ok ⟨[⟨[]⟩], []⟩ ∧ osvTimeline ⟨[⟨[]⟩], []⟩ = .panic := by decide +kernel
example : osvTimeline ⟨[req .greaterEq 1 2 3], []⟩ =
    .ok [.introduced { major := 0, minor := 0, patch := 0, pre := [.num 0] }, .fixed (.release 1 2 3)] := by
  decide +kernel

/-- **C05.** `increment v` is the immediate successor of `v` in semver precedence: it is above `v`, and
everything above `v` is at or above it. -/
theorem C05_increment_successor (v : Version) :
    PrecLT v (increment v) ∧ ∀ w, PrecLT v w → PrecLE (increment v) w := by
  refine ⟨?_, fun w h => ?_⟩
  · rw [precLT_iff, ← increment_le_iff]
  · rw [precLE_iff, increment_le_iff]; exact precLT_iff.mp h

example : increment { major := 1, minor := 0, patch := 0, pre := [.alpha ['r', 'c'], .num 1], build := [.num 7 1] } =
    { major := 1, minor := 0, patch := 0, pre := [.alpha ['r', 'c'], .num 1, .num 0] } := by decide +kernel

/-- **C06.** Rearranging requirements, within or between the two lists, changes neither the outcome of
`Versions::new` (Ok, Err or panic) nor the answer of `is_vulnerable` for any version. -/
theorem C06_rearrangement (p u p' u' : List VersionReq) (hwf : ∀ r ∈ p ++ u, ReqWF r)
    (hperm : (p ++ u).Perm (p' ++ u')) :
    ((Versions.new p u = .ok ⟨p, u⟩ ↔ Versions.new p' u' = .ok ⟨p', u'⟩) ∧
     (Versions.new p u = .panic ↔ Versions.new p' u' = .panic)) ∧
    (Versions.new p u = .ok ⟨p, u⟩ → ∀ w, Versions.isVulnerable ⟨p, u⟩ w = Versions.isVulnerable ⟨p', u'⟩ w) := by
  have hwf' : ∀ r ∈ p' ++ u', ReqWF r := fun r hr => hwf r (hperm.mem_iff.mpr hr)
  have hpu : (u ++ p).Perm (u' ++ p') :=
    (List.perm_append_comm.trans hperm).trans List.perm_append_comm
  have hpw : (u ++ p).Pairwise Apart ↔ (u' ++ p').Pairwise Apart :=
    hpu.pairwise_iff (fun h => h.symm)
  have hok : Versions.new p u = .ok ⟨p, u⟩ ↔ Versions.new p' u' = .ok ⟨p', u'⟩ := by
    rw [C02_ok_iff p u hwf, C02_ok_iff p' u' hwf', hpw]
    simp only [hperm.mem_iff]
  refine ⟨⟨hok, ?_⟩, ?_⟩
  · rw [C02_panic_iff p u hwf, C02_panic_iff p' u' hwf', hpw]
    simp only [hperm.mem_iff]
  · intro h w
    obtain ⟨b, hb, hb'⟩ := C01_is_vulnerable_iff p u _ hwf h w
    obtain ⟨c, hc, hc'⟩ := C01_is_vulnerable_iff p' u' _ hwf' (hok.mp h) w
    rw [hb, hc, Outcome.ok.injEq, Bool.eq_iff_iff, hb', hc']
    simp only [hperm.mem_iff]

example : Versions.new [req .greaterEq 2 0 0] [req .less 1 0 0] = .ok ⟨[req .greaterEq 2 0 0], [req .less 1 0 0]⟩ ∧
    ([req .greaterEq 2 0 0] ++ [req .less 1 0 0]).Perm ([req .less 1 0 0] ++ [req .greaterEq 2 0 0]) := by
  refine ⟨by decide +kernel, List.Perm.swap _ _ _⟩

/-- **C08.** With no requirements every version is vulnerable. -/
theorem C08_empty_all_vulnerable (w : Version) :
    Versions.new [] [] = .ok ⟨[], []⟩ ∧ Versions.isVulnerable ⟨[], []⟩ w = .ok true := by
  refine ⟨by decide, ?_⟩
  simp [Versions.isVulnerable, rangesForAdvisory, unaffectedToOsvRanges, Outcome.mapList, OsvRange.affects]

/-- **C08 (converse).** No version is vulnerable exactly when the requirements cover all versions. -/
theorem C08_none_vulnerable_iff (patched unaffected : List VersionReq) (vs : Versions)
    (hwf : ∀ r ∈ patched ++ unaffected, ReqWF r) (h : Versions.new patched unaffected = .ok vs) :
    (∀ w, vs.isVulnerable w = .ok false) ↔ ∀ w, ∃ r ∈ patched ++ unaffected, Covers r w := by
  constructor <;> intro h' w <;> obtain ⟨b, hb, hb'⟩ := C01_is_vulnerable_iff patched unaffected vs hwf h w
  · rw [h' w, Outcome.ok.injEq] at hb
    subst hb
    by_contra hn
    refine absurd (hb'.mpr ?_) (by simp)
    intro r hr hc
    exact hn ⟨r, hr, hc⟩
  · rw [hb, Outcome.ok.injEq]
    obtain ⟨r, hr, hc⟩ := h' w
    by_contra hn
    exact hb'.mp (by simpa using hn) r hr hc

example : Versions.new [req .greaterEq 1 0 0] [req .less 1 0 0] = .ok ⟨[req .greaterEq 1 0 0], [req .less 1 0 0]⟩ ∧
    Versions.isVulnerable ⟨[req .greaterEq 1 0 0], [req .less 1 0 0]⟩ (.release 0 9 9) = .ok false := by
  decide +kernel

/-- **C09.** Versions that differ only in build metadata are classified the same. -/
theorem C09_build_metadata_irrelevant (patched unaffected : List VersionReq) (vs : Versions)
    (hwf : ∀ r ∈ patched ++ unaffected, ReqWF r) (h : Versions.new patched unaffected = .ok vs)
    (w : Version) (build : List BuildId) :
    vs.isVulnerable { w with build := build } = vs.isVulnerable w := by
  obtain ⟨b, hb, hb'⟩ := C01_is_vulnerable_iff patched unaffected vs hwf h w
  obtain ⟨c, hc, hc'⟩ := C01_is_vulnerable_iff patched unaffected vs hwf h { w with build := build }
  rw [hb, hc, Outcome.ok.injEq, Bool.eq_iff_iff, hb', hc']
  exact Iff.rfl

/-- The hypothesis of build-free bounds matters: the order on versions itself does see build metadata. -/
example : (Version.release 1 0 0) < { major := 1, minor := 0, patch := 0, build := [.num 1 1] } := by decide

end Verif.Props
