import Verif.Lemmas.Lockfile

/-!
# C28, C29: lockfiles survive writing and reading; dependency references resolve
-/

namespace Verif.Props

open Verif Verif.Lock Verif.Spec Verif.Semver

/-! ## C29 -/

/-- Package tables as they are before anything is abbreviated, for the statement of C29. -/
def tables (ps : List Package) : List EncPackage := ps.map EncPackage.ofPackage

/-- C29: the (possibly abbreviated) reference written for a package of the lockfile resolves to that package's
name, version and source if and only if the reference has a source or the first package with the same name and
version has none either. -/
theorem C29_resolve_iff (ps : List Package) (d : Dependency) (hd : Names ps d)
    (hp : ∀ p ∈ ps, ∀ s, p.source = some s → s.kind ≠ .path) :
    ((EncDependency.ofDependency d).v2 ps).resolve (tables ps) = .ok d ↔ NotShadowed ps d := by
  let f : Package → EncPackage := fun p => { EncPackage.ofPackage p with source := p.source }
  have hf : Keeps f := fun p => ⟨rfl, rfl, rfl⟩
  have hmap : tables ps = ps.map f := by
    unfold tables
    apply List.map_congr_left
    intro p hpm
    show EncPackage.ofPackage p = { EncPackage.ofPackage p with source := p.source }
    have : encSource p.source = p.source := encSource_id (hp p hpm)
    simp only [EncPackage.ofPackage, this]
  rw [hmap]
  apply resolve_v2_iff hf hd
  obtain ⟨q, hq, _, _, hs⟩ := hd
  rw [← hs]
  exact hp q hq

/-- C29: when no two packages share name and version, every reference resolves to its package. -/
theorem C29_resolve_distinct (ps : List Package) (d : Dependency) (hd : Names ps d)
    (hp : ∀ p ∈ ps, ∀ s, p.source = some s → s.kind ≠ .path)
    (hu : ∀ p ∈ ps, ∀ q ∈ ps, p.name = q.name → p.version = q.version → p = q) :
    ((EncDependency.ofDependency d).v2 ps).resolve (tables ps) = .ok d := by
  rw [C29_resolve_iff ps d hd hp]
  obtain ⟨q, hq, hn, hv, hs⟩ := hd
  by_cases h : d.source = none
  · right
    intro q' hq'
    have hm := List.mem_of_find?_eq_some hq'
    have hc0 := List.find?_some hq'
    have hc := of_decide_eq_true hc0
    rw [hu q' hm q hq (hc.1.trans hn.symm) (hc.2.trans hv.symm), hs, h]
  · exact Or.inl h

/-- C29: how much of a reference is written: the name alone exactly when one package has it, and otherwise
the source is left out exactly when one package has that name and version. -/
theorem C29_abbreviation (ps : List Package) (d : Dependency) (hs : ∀ s, d.source = some s → s.kind ≠ .path) :
    let byName := (ps.filter fun p => decide (p.name = d.name)).length
    let byBoth := (ps.filter fun p => decide (p.name = d.name ∧ p.version = d.version)).length
    ((EncDependency.ofDependency d).v2 ps) =
      (if byName = 1 then ⟨d.name, none, none⟩
       else if byBoth = 1 then ⟨d.name, some d.version, none⟩
       else ⟨d.name, some d.version, d.source⟩) := by
  have hsrc : encSource d.source = d.source := encSource_id hs
  have hcond : ((ps.filter fun p => decide (p.name = d.name)).filter fun p => decide (p.version = d.version)) =
      ps.filter fun p => decide (p.name = d.name ∧ p.version = d.version) := by
    rw [List.filter_filter]
    congr 1
    funext p
    rw [Bool.and_comm, ← Bool.decide_and]
  simp only [EncDependency.v2, EncDependency.ofDependency, hsrc, hcond]

/-- Two packages `a 1.0.0`, from crates.io and (a workspace member) without a source. -/
def shadowPackages : List Package :=
  [{ name := "a".toList, version := ⟨1, 0, 0, [], []⟩, source := some SourceId.default },
   { name := "a".toList, version := ⟨1, 0, 0, [], []⟩ }]

/-- C29, violation: with a registry package before a source-less package of the same name and version, the
reference to the latter resolves to the former. -/
theorem C29_shadowed :
    ∃ (ps : List Package) (d d' : Dependency), Names ps d ∧ d ≠ d' ∧
      ((EncDependency.ofDependency d).v2 ps).resolve (tables ps) = .ok d' := by
  refine ⟨shadowPackages, ⟨"a".toList, ⟨1, 0, 0, [], []⟩, none⟩,
    ⟨"a".toList, ⟨1, 0, 0, [], []⟩, some SourceId.default⟩, ?_, by decide, by decide +kernel⟩
  exact ⟨_, List.mem_cons_of_mem _ (List.mem_singleton.mpr rfl), rfl, rfl, rfl⟩

/-- C29, violation: a reference to a version that is not in the lockfile is silently redirected to another
version, if one package has that name. -/
theorem C29_dangling_redirected (p : Package) (hp : ∀ s, p.source = some s → s.kind ≠ .path) (v : Version) :
    ((EncDependency.ofDependency ⟨p.name, v, none⟩).v2 [p]).resolve (tables [p]) =
      .ok ⟨p.name, p.version, p.source⟩ := by
  have h : encSource p.source = p.source := encSource_id hp
  simp [EncDependency.v2, EncDependency.ofDependency, EncDependency.resolve, tables, EncPackage.ofPackage,
    EncDependency.answeredBy, h]

/-- Non-vacuity: a list with two versions of `a`, one `b`. -/
def twoVersions : List Package :=
  [{ name := "a".toList, version := ⟨1, 0, 0, [], []⟩, source := some SourceId.default },
   { name := "a".toList, version := ⟨2, 0, 0, [], []⟩, source := some SourceId.default },
   { name := "b".toList, version := ⟨1, 0, 0, [], []⟩ }]

example : (∀ p ∈ twoVersions, ∀ s, p.source = some s → s.kind ≠ .path) ∧
    (∀ p ∈ twoVersions, ∀ q ∈ twoVersions, p.name = q.name → p.version = q.version → p = q) ∧
    ((EncDependency.ofDependency ⟨"a".toList, ⟨2, 0, 0, [], []⟩, some SourceId.default⟩).v2 twoVersions) =
      ⟨"a".toList, some ⟨2, 0, 0, [], []⟩, none⟩ := by
  refine ⟨?_, by decide +kernel, by decide +kernel⟩
  intro p hp s hs
  simp only [twoVersions, List.mem_cons, List.not_mem_nil, or_false] at hp
  rcases hp with rfl | rfl | rfl <;> cases hs <;> decide

/-! ## C28 -/

private theorem encodePackage_v2 {l : Lockfile} (hv : l.version ≠ .v1) (p : Package) :
    encodePackage l p = { EncPackage.ofPackage p with
      dependencies := p.dependencies.map fun d => (EncDependency.ofDependency d).v2 l.packages } := by
  unfold encodePackage
  simp only
  rw [if_neg hv]
  simp [EncPackage.ofPackage]

/-- The text written for one package reads back as the encoded package (formats V2 to V4). -/
private theorem read_encoded {C : Codec} {l : Lockfile} (hv : l.version ≠ .v1) {p : Package}
    (hp : PackageOk C l.version.encoded p) :
    ((encodePackage l p).emit C l.version.encoded).read C = .ok (encodePackage l p) := by
  obtain ⟨h1, h2, h3, h4, h5⟩ := hp
  have hsrc : encSource p.source = p.source := encSource_id (fun x hx => (h2 x hx).1)
  rw [encodePackage_v2 hv]
  apply read_package
  · exact h1
  · intro s hs
    simp only [EncPackage.ofPackage, hsrc] at hs
    exact h2 s hs
  · exact h3
  · intro d hd
    simp only [List.mem_map] at hd
    obtain ⟨d0, hd0, rfl⟩ := hd
    exact read_dependency (h4 d0 hd0)
  · intro r hr
    simp only [EncPackage.ofPackage, Option.map_eq_some_iff] at hr
    obtain ⟨r0, hr0, rfl⟩ := hr
    obtain ⟨g1, g2⟩ := h5 r0 hr0
    refine ⟨?_, read_dependency_full g2⟩
    simp [g1]

private theorem decode_encoded {C : Codec} {l : Lockfile} (h : WellFormed C l) {p : Package}
    (hpm : p ∈ l.packages) : (encodePackage l p).resolve (l.packages.map (encodePackage l)) = .ok p := by
  obtain ⟨h1, h2, h3, h4, h5⟩ := h.packages p hpm
  have hsrc : encSource p.source = p.source := encSource_id (fun x hx => (h2 x hx).1)
  let f : Package → EncPackage := fun p => { encodePackage l p with source := p.source }
  have hf : Keeps f := by
    intro q
    show (encodePackage l q).name = q.name ∧ (encodePackage l q).version = q.version ∧ q.source = q.source
    rw [encodePackage_v2 h.version]
    exact ⟨rfl, rfl, rfl⟩
  have hmap : l.packages.map (encodePackage l) = l.packages.map f := by
    apply List.map_congr_left
    intro q hq
    show encodePackage l q = { encodePackage l q with source := q.source }
    have : encSource q.source = q.source :=
      encSource_id (fun x hx => ((h.packages q hq).2.1 x hx).1)
    rw [encodePackage_v2 h.version]
    simp only [EncPackage.ofPackage, this]
  have hdeps : Outcome.mapList (fun d => EncDependency.resolve d (l.packages.map (encodePackage l)))
      (p.dependencies.map fun d => (EncDependency.ofDependency d).v2 l.packages) = .ok p.dependencies := by
    rw [mapList_map, mapList_eq_ok (g := id)]
    · simp
    · intro d hd
      obtain ⟨hn, hs⟩ := h.deps p hpm d hd
      rw [hmap]
      exact (resolve_v2_iff hf hn (fun x hx => ((h4 d hd).2.2 x hx).1)).mpr hs
  have hrep : resolveReplace (p.replace.map EncDependency.ofDependency) = .ok p.replace :=
    resolveReplace_full (fun d hd x hx => ((h5 d hd).2.2.2 x hx).1)
  rw [encodePackage_v2 h.version] at *
  unfold EncPackage.resolve
  simp only [EncPackage.ofPackage, hsrc]
  rw [hdeps]
  simp only [Outcome.bind_ok]
  rw [hrep]
  rfl

/-- C28: writing a well-formed lockfile of format V2, V3 or V4 and reading the document gives the same lockfile
(version, packages with sources, checksums and dependencies, metadata, patches). -/
theorem C28_round_trip (C : Codec) (l : Lockfile) (h : WellFormed C l) :
    Lockfile.parse C (l.print C) = .ok l := by
  have hmeta : l.packages.foldl (metaStep C l.version) l.metadata = l.metadata := by
    apply foldl_id
    intro p hp
    unfold metaStep
    simp only
    rw [if_neg h.version]
    exact metaRemove_id (h.metadata p hp)
  have hread : (l.print C).read C = .ok { l.encode C with root := none } := by
    have hp : Outcome.mapList (PkgDoc.read C)
        ((l.packages.map (encodePackage l)).map (EncPackage.emit C l.version.encoded)) =
        .ok (l.packages.map (encodePackage l)) := by
      rw [mapList_map, mapList_map, mapList_eq_ok (g := encodePackage l)]
      intro p hp
      exact read_encoded h.version (h.packages p hp)
    have hpatch : Outcome.mapList (PatchDoc.read C) (l.patch.map (emitPatch C)) = .ok l.patch := by
      rw [mapList_map, mapList_eq_ok (g := id)]
      · simp
      · intro d hd
        exact read_patch (h.patch d hd).1 (h.patch d hd).2
    have hver : emitVersion (if l.version.isExplicit then some l.version.toNat else none) =
        (if l.version.isExplicit then some l.version.toNat else none) := by
      cases l.version <;> rfl
    unfold LockDoc.read Lockfile.print EncLockfile.emit Lockfile.encode
    simp only
    rw [hp, hver]
    simp only [Outcome.bind_ok, readOptPkg]
    rw [hpatch]
    rfl
  have hversion : EncLockfile.resolveVersion { l.encode C with root := none } = .ok l.version := by
    unfold EncLockfile.resolveVersion Lockfile.encode
    simp only
    cases hv : l.version with
    | v1 => exact absurd hv h.version
    | v2 =>
      show ResolveVersion.detect (l.packages.map (encodePackage l))
        (l.packages.foldl (metaStep C .v2) l.metadata) = _
      unfold ResolveVersion.detect
      rw [hv] at hmeta
      rw [hmeta]
      have : (l.metadata.any fun e => isChecksumKey e.1) = false := by
        rw [List.any_eq_false]
        intro e he
        have := h.metadata_v2 hv e he
        unfold isChecksumKey checksumPrefix
        rw [List.isPrefixOf_iff_prefix]
        exact this
      simp only [this]
      simp
    | v3 => rfl
    | v4 => rfl
  unfold Lockfile.parse
  rw [hread]
  simp only [Outcome.bind_ok]
  unfold EncLockfile.decode
  rw [hversion]
  simp only [Outcome.bind_ok]
  have hpk : Outcome.mapList (decodePackage C { l.encode C with root := none } l.version)
      (l.encode C).package = .ok l.packages := by
    show Outcome.mapList _ (l.packages.map (encodePackage l)) = _
    rw [mapList_map, mapList_eq_ok (g := id)]
    · simp
    · intro p hp
      unfold decodePackage
      rw [if_neg h.version]
      exact decode_encoded h hp
  rw [hpk]
  simp only [Outcome.bind_ok, decodeRoot]
  have hroot := h.root
  obtain ⟨ver, pk, root, md, patch⟩ := l
  simp only at hroot hmeta
  subst hroot
  simp only [Lockfile.encode, hmeta]
  rfl

/-! ### A codec and lockfiles to exercise the theorem -/

/-- A toy codec: the toy URL library, and `major.minor.patch` versions. -/
def toyCodec : Codec where
  url := toyUrl
  showVersion v := joinC '.' [showNat v.major, showNat v.minor, showNat v.patch]
  parseVersion s :=
    match (splitC '.' s).map (parseUnsigned (2 ^ 64)) with
    | [some a, some b, some c] => some ⟨a, b, c, [], []⟩
    | _ => none

/-- A lockfile of format V4: two versions of `a`, a git package with an awkward branch name, a workspace member
depending on all of them. -/
def sampleLock : Lockfile :=
  { version := .v4,
    packages :=
      [{ name := "a".toList, version := ⟨1, 0, 0, [], []⟩,
         source := some { SourceId.default with precise := some "locked".toList },
         checksum := some (List.replicate 32 7) },
       { name := "a".toList, version := ⟨2, 0, 0, [], []⟩,
         source := some { SourceId.default with precise := some "locked".toList } },
       { name := "g".toList, version := ⟨0, 1, 0, [], []⟩, source := some (gitBranch "x&y #1" (some "abc")) },
       { name := "root".toList, version := ⟨0, 0, 1, [], []⟩,
         dependencies :=
           [⟨"a".toList, ⟨1, 0, 0, [], []⟩, some { SourceId.default with precise := some "locked".toList }⟩,
            ⟨"a".toList, ⟨2, 0, 0, [], []⟩, some { SourceId.default with precise := some "locked".toList }⟩,
            ⟨"g".toList, ⟨0, 1, 0, [], []⟩, some (gitBranch "x&y #1" (some "abc"))⟩] }] }

/-- What is written for the last package of `sampleLock`: abbreviated dependencies. -/
example : ((sampleLock.print toyCodec).packages.map (·.dependencies))[3]? =
    some ["a 1.0.0".toList, "a 2.0.0".toList, "g".toList] := by decide +kernel

/-- Non-vacuity of C28. -/
theorem sampleLock_wellFormed : WellFormed toyCodec sampleLock := by
  have v100 : VersionOk toyCodec ⟨1, 0, 0, [], []⟩ := ⟨by decide +kernel, by decide +kernel, by decide +kernel⟩
  have v200 : VersionOk toyCodec ⟨2, 0, 0, [], []⟩ := ⟨by decide +kernel, by decide +kernel, by decide +kernel⟩
  have v010 : VersionOk toyCodec ⟨0, 1, 0, [], []⟩ := ⟨by decide +kernel, by decide +kernel, by decide +kernel⟩
  have v001 : VersionOk toyCodec ⟨0, 0, 1, [], []⟩ := ⟨by decide +kernel, by decide +kernel, by decide +kernel⟩
  have s1 : SourceOk toyCodec true { SourceId.default with precise := some "locked".toList } :=
    ⟨by decide, by decide +kernel, by decide +kernel⟩
  have s2 : SourceOk toyCodec true (gitBranch "x&y #1" (some "abc")) :=
    ⟨by decide, by decide +kernel, by decide +kernel⟩
  have wa : IsWord "a".toList := ⟨by decide, by decide⟩
  have wg : IsWord "g".toList := ⟨by decide, by decide⟩
  have henc : sampleLock.version.encoded = true := by decide
  constructor
  · decide
  · rfl
  · intro p hp
    rw [henc]
    simp only [sampleLock, List.mem_cons, List.not_mem_nil, or_false] at hp
    rcases hp with rfl | rfl | rfl | rfl
    · exact ⟨v100, fun s hs => by cases hs; exact s1, fun c hc => by cases hc; rfl, by simp, by simp⟩
    · exact ⟨v200, fun s hs => by cases hs; exact s1, by simp, by simp, by simp⟩
    · exact ⟨v010, fun s hs => by cases hs; exact s2, by simp, by simp, by simp⟩
    · refine ⟨v001, by simp, by simp, ?_, by simp⟩
      intro d hd
      simp only [List.mem_cons, List.not_mem_nil, or_false] at hd
      rcases hd with rfl | rfl | rfl
      · exact ⟨wa, v100, fun s hs => by cases hs; exact s1⟩
      · exact ⟨wa, v200, fun s hs => by cases hs; exact s1⟩
      · exact ⟨wg, v010, fun s hs => by cases hs; exact s2⟩
  · intro p hp d hd
    simp only [sampleLock, List.mem_cons, List.not_mem_nil, or_false] at hp
    rcases hp with rfl | rfl | rfl | rfl
    · cases hd
    · cases hd
    · cases hd
    · simp only [List.mem_cons, List.not_mem_nil, or_false] at hd
      unfold Names NotShadowed
      rcases hd with rfl | rfl | rfl
      · exact ⟨⟨_, .head _, rfl, rfl, rfl⟩, Or.inl (by simp)⟩
      · exact ⟨⟨_, .tail _ (.head _), rfl, rfl, rfl⟩, Or.inl (by simp)⟩
      · exact ⟨⟨_, .tail _ (.tail _ (.head _)), rfl, rfl, rfl⟩, Or.inl (by simp)⟩
  · intro d hd; cases hd
  · intro p _ e he; cases he
  · intro h; exact absurd h (by decide)

/-- A visible ASCII character is not whitespace. -/
private theorem not_ws_of_visible {c : Char} (h1 : ' ' < c) (h2 : c < Char.ofNat 127) : isWs c = false := by
  have a : 32 < c.toNat := h1
  have b : c.toNat < 127 := h2
  have key : ∀ n < 127, 32 < n → isWs (Char.ofNat n) = false := by decide +kernel
  have := key c.toNat b a
  rwa [Char.ofNat_toNat] at this

/-- C28 for the sources of format V4: every source that was read from some text (not a path, and without
whitespace in its URL base) satisfies the source condition of `WellFormed`. -/
theorem C28_source_ok_v4 {C : Codec} (hL : UrlLib.Lawful C.url) {t : Str} {s : SourceId}
    (h : SourceId.fromUrl C.url t = .ok s) (hk : s.kind ≠ .path) (hb : ∀ c ∈ s.url.text, isWs c = false) :
    SourceOk C true s := by
  refine ⟨hk, C26_encoded_round_trip hL h, ?_⟩
  have pre : ∀ (p : String), (∀ c ∈ p.toList, isWs c = false) → ∀ c ∈ p.toList ++ s.url.text, isWs c = false := by
    intro p hp c hc
    rcases List.mem_append.mp hc with hc | hc
    · exact hp c hc
    · exact hb c hc
  obtain ⟨_, hg | ⟨hk', _⟩ | ⟨hk', _⟩ | ⟨hk', _⟩⟩ := C26_parsed_shape hL h
  · obtain ⟨r, hr⟩ := hg.kind
    unfold SourceId.asUrl
    rw [hr]
    simp only
    intro c hc
    rcases List.mem_append.mp hc with hc | hc
    · rcases List.mem_append.mp hc with hc | hc
      · exact pre "git+" (by decide) c hc
      · have hser : ∀ x : Str, ∀ c ∈ byteSerialize x, isWs c = false := by
          intro x c hc
          obtain ⟨y, _, hc'⟩ := List.mem_flatMap.mp hc
          have hgt := (byteSerialize_chars x c hc).2
          apply not_ws_of_visible hgt
          split at hc'
          · rename_i hkeep
            rw [List.mem_singleton] at hc'; subst hc'
            show c.toNat < (Char.ofNat 127).toNat
            have e : (Char.ofNat 127).toNat = 127 := by decide
            rw [e]
            simp only [Bool.or_eq_true, Char.isAlphanum, Char.isAlpha, Char.isUpper, Char.isLower, Char.isDigit,
              decide_eq_true_eq, Bool.and_eq_true] at hkeep
            rcases hkeep with ((⟨_, h⟩ | ⟨_, h⟩) | ⟨_, h⟩) | h
            · have : c.toNat ≤ (90 : UInt32).toNat := h
              have e : (90 : UInt32).toNat = 90 := by decide
              omega
            · have : c.toNat ≤ (122 : UInt32).toNat := h
              have e : (122 : UInt32).toNat = 122 := by decide
              omega
            · have : c.toNat ≤ (57 : UInt32).toNat := h
              have e : (57 : UInt32).toNat = 57 := by decide
              omega
            · simp only [List.mem_cons, List.not_mem_nil, or_false] at h
              rcases h with rfl | rfl | rfl | rfl <;> decide
          · split at hc'
            · rw [List.mem_singleton] at hc'; subst hc'; decide
            · have := kept_pctBytes (keep := keepFragment) (by decide) (fun n => (hexDigitUpper_kept n).1) _ c hc'
              exact keep_ascii.1 this
        have hpretty : ∀ q, r.pretty true = some q → ∀ c ∈ q, isWs c = false := by
          intro q hq c hc
          cases r with
          | defaultBranch => cases hq
          | branch x =>
            simp only [GitReference.pretty, refValue, if_true, Option.some.injEq] at hq
            subst hq
            rcases List.mem_append.mp hc with hc | hc
            · have : ∀ c ∈ "branch=".toList, isWs c = false := by decide
              exact this c hc
            · exact hser x c hc
          | tag x =>
            simp only [GitReference.pretty, refValue, if_true, Option.some.injEq] at hq
            subst hq
            rcases List.mem_append.mp hc with hc | hc
            · have : ∀ c ∈ "tag=".toList, isWs c = false := by decide
              exact this c hc
            · exact hser x c hc
          | rev x =>
            simp only [GitReference.pretty, refValue, if_true, Option.some.injEq] at hq
            subst hq
            rcases List.mem_append.mp hc with hc | hc
            · have : ∀ c ∈ "rev=".toList, isWs c = false := by decide
              exact this c hc
            · exact hser x c hc
        cases hp : r.pretty true with
        | none => rw [hp] at hc; cases hc
        | some q =>
          rw [hp] at hc
          rcases List.mem_cons.mp hc with rfl | hc
          · decide
          · exact hpretty q hp c hc
    · cases hp : s.precise with
      | none => rw [hp] at hc; cases hc
      | some p =>
        rw [hp] at hc
        rcases List.mem_cons.mp hc with rfl | hc
        · decide
        · have := hg.precise p hp c hc
          exact not_ws_of_visible (keepF_gt this) (keep_ascii.1 this)
  · unfold SourceId.asUrl; rw [hk']; exact pre "registry+" (by decide)
  · unfold SourceId.asUrl; rw [hk']; exact pre "sparse+" (by decide)
  · exact absurd hk' hk

/-! ### What is lost -/

/-- C28, what is not preserved, for every lockfile: the legacy `root` package and the `replace` directive of a
package with dependencies are never written. -/
theorem C28_root_dropped (C : Codec) (l l' : Lockfile) (h : Lockfile.parse C (l.print C) = .ok l') :
    l'.root = none := by
  unfold Lockfile.parse LockDoc.read at h
  cases hp : Outcome.mapList (PkgDoc.read C) (l.print C).packages with
  | err => rw [hp] at h; cases h
  | panic => rw [hp] at h; cases h
  | ok ps =>
    rw [hp] at h
    simp only [Outcome.bind_ok] at h
    have hr : (l.print C).root = none := rfl
    rw [hr] at h
    simp only [readOptPkg, Outcome.bind_ok] at h
    cases hq : Outcome.mapList (PatchDoc.read C) (l.print C).patch with
    | err => rw [hq] at h; cases h
    | panic => rw [hq] at h; cases h
    | ok patch =>
      rw [hq] at h
      simp only [Outcome.bind_ok, Outcome.pure_eq] at h
      unfold EncLockfile.decode at h
      cases hv : EncLockfile.resolveVersion
          ⟨(l.print C).version, ps, none, (l.print C).metadata, patch⟩ with
      | err => rw [hv] at h; cases h
      | panic => rw [hv] at h; cases h
      | ok v =>
        rw [hv] at h
        simp only [Outcome.bind_ok] at h
        cases hd : Outcome.mapList (decodePackage C
            ⟨(l.print C).version, ps, none, (l.print C).metadata, patch⟩ v) ps with
        | err => rw [hd] at h; cases h
        | panic => rw [hd] at h; cases h
        | ok pk =>
          rw [hd] at h
          simp only [Outcome.bind_ok, decodeRoot, Outcome.pure_eq, Outcome.ok.injEq] at h
          rw [← h]

/-- C28, violation: a package with both dependencies and a `replace` directive loses the directive. -/
theorem C28_replace_lost (C : Codec) (enc : Bool) (p : EncPackage) (h : p.dependencies ≠ []) :
    (p.emit C enc).replace = none := by
  unfold EncPackage.emit
  simp only
  rw [if_neg]
  simpa using h

/-- One git package at a given branch. -/
def gitLock (v : ResolveVersion) (b : String) : Lockfile :=
  { version := v,
    packages := [{ name := "g".toList, version := ⟨0, 1, 0, [], []⟩, source := some (gitBranch b (some "abc")) }] }

/-- C28, violation: before V4, a git branch name with `&` is not preserved: the lockfile reads back with
another source; in format V4 it is preserved. -/
theorem C28_v3_branch_lost :
    Lockfile.parse toyCodec ((gitLock .v3 "x&y").print toyCodec) = .ok (gitLock .v3 "x") ∧
    gitLock .v3 "x" ≠ gitLock .v3 "x&y" ∧
    Lockfile.parse toyCodec ((gitLock .v4 "x&y").print toyCodec) = .ok (gitLock .v4 "x&y") := by
  refine ⟨?_, ?_, ?_⟩ <;> decide +kernel

end Verif.Props
