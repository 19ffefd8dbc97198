import Mathlib.Data.List.Forall2
import Verif.Props.Lockfile

/-!
# C30: checksums survive the V1 metadata table
-/

namespace Verif.Props

open Verif Verif.Lock Verif.Spec Verif.Semver

/-! ## Lemmas -/

private theorem mem_metaInsert {k v : Str} {m : LockMetadata} {e : Str × Str} (h : e ∈ metaInsert k v m) :
    e = (k, v) ∨ e ∈ m := by
  induction m with
  | nil => simp only [metaInsert, List.mem_singleton] at h; exact Or.inl h
  | cons x m ih =>
    obtain ⟨k', v'⟩ := x
    simp only [metaInsert] at h
    split at h
    · rcases List.mem_cons.mp h with h | h
      · exact Or.inl h
      · exact Or.inr h
    · rcases List.mem_cons.mp h with h | h
      · exact Or.inl h
      · exact Or.inr (by simp [h])
    · rcases List.mem_cons.mp h with h | h
      · exact Or.inr (by simp [h])
      · rcases ih h with h | h
        · exact Or.inl h
        · exact Or.inr (by simp [h])

private theorem metaInsert_self (k v : Str) (m : LockMetadata) : (k, v) ∈ metaInsert k v m := by
  induction m with
  | nil => simp [metaInsert]
  | cons x m ih =>
    obtain ⟨k', v'⟩ := x
    simp only [metaInsert]
    split
    · simp
    · simp
    · simp [ih]

private theorem metaInsert_other {k v : Str} {m : LockMetadata} {e : Str × Str} (h : e ∈ m) (hk : e.1 ≠ k) :
    e ∈ metaInsert k v m := by
  induction m with
  | nil => cases h
  | cons x m ih =>
    obtain ⟨k', v'⟩ := x
    simp only [metaInsert]
    split
    · exact List.mem_cons_of_mem _ h
    · rename_i hc
      have hkk : k = k' := Std.LawfulEqCmp.eq_of_compare (cmp := List.compareLex compare) hc
      rcases List.mem_cons.mp h with h | h
      · subst h; exact absurd hkk.symm hk
      · exact List.mem_cons_of_mem _ h
    · rcases List.mem_cons.mp h with h | h
      · exact h ▸ List.mem_cons_self
      · exact List.mem_cons_of_mem _ (ih h)

/-- Entries after the loop over the packages: old ones or those written for packages with a checksum. -/
private theorem mem_foldl {C : Codec} (ps : List Package) (m : LockMetadata) {e : Str × Str}
    (h : e ∈ ps.foldl (metaStep C .v1) m) :
    e ∈ m ∨ ∃ p ∈ ps, ∃ c, p.checksum = some c ∧ e = (checksumKey C (Dependency.ofPackage p), c.show) := by
  induction ps generalizing m with
  | nil => exact Or.inl h
  | cons p ps ih =>
    rw [List.foldl_cons] at h
    rcases ih _ h with h | ⟨q, hq, c, hc, he⟩
    · unfold metaStep at h
      simp only [if_true] at h
      cases hc : p.checksum with
      | none => rw [hc] at h; exact Or.inl h
      | some c =>
        rw [hc] at h
        rcases mem_metaInsert h with h | h
        · exact Or.inr ⟨p, by simp, c, hc, h⟩
        · exact Or.inl h
    · exact Or.inr ⟨q, by simp [hq], c, hc, he⟩

/-- An entry survives the rest of the loop unless its key is written again. -/
private theorem foldl_keeps {C : Codec} (ps : List Package) (m : LockMetadata) {k v : Str} (h : (k, v) ∈ m)
    (hsame : ∀ q ∈ ps, ∀ c, q.checksum = some c → checksumKey C (Dependency.ofPackage q) = k → c.show = v) :
    (k, v) ∈ ps.foldl (metaStep C .v1) m := by
  induction ps generalizing m with
  | nil => exact h
  | cons p ps ih =>
    rw [List.foldl_cons]
    apply ih
    · unfold metaStep
      simp only [if_true]
      cases hc : p.checksum with
      | none => exact h
      | some c =>
        simp only
        by_cases hk : checksumKey C (Dependency.ofPackage p) = k
        · have := hsame p (by simp) c hc hk
          rw [hk, this]
          exact metaInsert_self _ _ _
        · exact metaInsert_other h (fun e => hk e.symm)
    · intro q hq; exact hsame q (by simp [hq])

private theorem foldl_has {C : Codec} (ps : List Package) (m : LockMetadata) {p : Package} (hp : p ∈ ps)
    {c : Checksum} (hc : p.checksum = some c)
    (hsame : ∀ q ∈ ps, checksumKey C (Dependency.ofPackage q) = checksumKey C (Dependency.ofPackage p) →
      q.checksum = p.checksum) :
    (checksumKey C (Dependency.ofPackage p), c.show) ∈ ps.foldl (metaStep C .v1) m := by
  induction ps generalizing m with
  | nil => cases hp
  | cons q ps ih =>
    rw [List.foldl_cons]
    rcases List.mem_cons.mp hp with rfl | hp
    · apply foldl_keeps
      · unfold metaStep
        simp only [if_true]
        rw [hc]
        exact metaInsert_self _ _ _
      · intro r hr c' hc' hk
        have := hsame r (by simp [hr]) hk
        rw [hc', hc] at this
        cases this; rfl
    · exact ih _ hp (fun r hr => hsame r (by simp [hr]))

private theorem keyDependency_key {C : Codec} {d : Dependency} (h : DependencyOk C false d) :
    keyDependency C (checksumKey C d) = .ok d := by
  obtain ⟨h1, h2, h3⟩ := h
  have hsrc : encSource d.source = d.source := encSource_id (fun x hx => (h3 x hx).1)
  have hkey : isChecksumKey (checksumKey C d) = true := by
    unfold isChecksumKey checksumKey
    rw [List.isPrefixOf_iff_prefix]
    exact List.prefix_append _ _
  have hdrop : (checksumKey C d).drop checksumPrefix.length = d.show C := by
    unfold checksumKey
    exact List.drop_left
  have hshow : d.show C = (EncDependency.ofDependency d).show C false := by
    unfold Dependency.show EncDependency.show EncDependency.ofDependency
    simp only [hsrc]
  unfold keyDependency
  rw [if_pos hkey, hdrop, hshow, read_dependency_full ⟨h1, h2, h3⟩]
  simp only
  exact resolve_full (fun x hx => (h3 x hx).1)

private theorem keyDependency_not_panic {C : Codec} (k : Str) : keyDependency C k ≠ .panic := by
  have hurl : ∀ s, SourceId.fromUrl C.url s ≠ .panic := by
    intro s
    unfold SourceId.fromUrl
    split
    · simp
    · split
      · split <;> simp
      · split
        · split <;> simp
        · split
          · split <;> simp
          · split
            · split <;> simp
            · simp
  have hparen : ∀ s, parseParen C s ≠ .panic := by
    intro s
    unfold parseParen
    split
    · split
      · exact hurl _
      · simp
    · simp
  have hver : ∀ s, parseVersionO C s ≠ .panic := by
    intro s; unfold parseVersionO; split <;> simp
  have hfrom : ∀ s, EncDependency.fromStr C s ≠ .panic := by
    intro s
    unfold EncDependency.fromStr
    split
    · simp
    · rename_i v _
      split
      · simp
      · simp
      · rename_i h; exact absurd h (hver _)
    · split
      · split
        · simp
        · simp
        · rename_i h; exact absurd h (hparen _)
      · simp
      · rename_i h; exact absurd h (hver _)
    · simp
  unfold keyDependency
  split
  · split
    · unfold EncDependency.resolve
      split
      · simp
      · split <;> simp
    · simp
    · rename_i h; exact absurd h (hfrom _)
  · simp

/-- The search finds the checksum when every matching entry holds it and there is one if needed. -/
private theorem findChecksum_eq {C : Codec} {p : Package} (q : Package) (hq : q.name = p.name ∧ q.version = p.version)
    (m : LockMetadata)
    (hall : ∀ e ∈ m, ∀ d, keyDependency C e.1 = .ok d → d.name = p.name → d.version = p.version →
      ∃ c, Checksum.fromStr e.2 = .ok c ∧ p.checksum = some c)
    (hex : ∀ c, p.checksum = some c → ∃ e ∈ m, ∃ d, keyDependency C e.1 = .ok d ∧ d.name = p.name ∧
      d.version = p.version) :
    findChecksum C q m = .ok p.checksum := by
  induction m with
  | nil =>
    cases hc : p.checksum with
    | none => rfl
    | some c => obtain ⟨e, he, _⟩ := hex c hc; cases he
  | cons x m ih =>
    obtain ⟨k, v⟩ := x
    have hskip : (∀ d, keyDependency C k = .ok d → ¬ (d.name = p.name ∧ d.version = p.version)) →
        findChecksum C q m = .ok p.checksum := by
      intro hno
      apply ih
      · intro e he; exact hall e (by simp [he])
      · intro c hc
        obtain ⟨e, he, d, hd, hn⟩ := hex c hc
        rcases List.mem_cons.mp he with rfl | he
        · exact absurd hn (hno d hd)
        · exact ⟨e, he, d, hd, hn⟩
    simp only [findChecksum]
    cases hkd : keyDependency C k with
    | panic => exact absurd hkd (keyDependency_not_panic k)
    | err => exact hskip (by intro d hd; rw [hkd] at hd; cases hd)
    | ok d =>
      simp only
      rw [hq.1, hq.2]
      split
      · rename_i hm
        obtain ⟨c, hc1, hc2⟩ := hall (k, v) (by simp) d hkd hm.1 hm.2
        simp only at hc1
        rw [hc1, hc2]
      · rename_i hm
        exact hskip (by intro d' hd'; rw [hkd] at hd'; cases hd'; exact hm)

private theorem encodePackage_v1 {l : Lockfile} (hv : l.version = .v1) (p : Package) :
    encodePackage l p = { EncPackage.ofPackage p with checksum := none } := by
  unfold encodePackage
  simp only
  rw [if_pos hv]

/-! ## Theorem -/

/-- C30: writing a well-formed V1 lockfile and reading the document gives the same packages, each with its
checksum, and the same format version; every checksum is in the document's metadata under the package's name,
version and source, and the package tables themselves hold none. -/
theorem C30_round_trip (C : Codec) (l : Lockfile) (h : WellFormedV1 C l) :
    Lockfile.parse C (l.print C) = .ok { l with metadata := (l.print C).metadata } ∧
    (∀ p ∈ l.packages, ∀ c, p.checksum = some c →
      (checksumKey C (Dependency.ofPackage p), c.show) ∈ (l.print C).metadata) ∧
    (∀ d ∈ (l.print C).packages, d.checksum = none) := by
  have hdep : ∀ p ∈ l.packages, DependencyOk C false (Dependency.ofPackage p) := by
    intro p hp
    obtain ⟨h1, h2, _⟩ := h.packages p hp
    exact ⟨h.names p hp, h1, h2⟩
  have henc : l.version.encoded = false := by rw [h.version]; rfl
  -- same key, same package
  have hsame : ∀ p ∈ l.packages, ∀ q ∈ l.packages,
      checksumKey C (Dependency.ofPackage q) = checksumKey C (Dependency.ofPackage p) → q = p := by
    intro p hp q hq hk
    have h1 := keyDependency_key (hdep p hp)
    rw [← hk, keyDependency_key (hdep q hq)] at h1
    simp only [Dependency.ofPackage, Outcome.ok.injEq, Dependency.mk.injEq] at h1
    exact h.distinct q hq p hp h1.1 h1.2.1
  have hmetadef : (l.print C).metadata = l.packages.foldl (metaStep C .v1) l.metadata := by
    show l.packages.foldl (metaStep C l.version) l.metadata = _
    rw [h.version]
  have hin : ∀ p ∈ l.packages, ∀ c, p.checksum = some c →
      (checksumKey C (Dependency.ofPackage p), c.show) ∈ (l.print C).metadata := by
    intro p hp c hc
    rw [hmetadef]
    exact foldl_has l.packages l.metadata hp hc (fun q hq hk => by rw [hsame p hp q hq hk])
  refine ⟨?_, hin, ?_⟩
  · have hread : (l.print C).read C = .ok { l.encode C with root := none } := by
      have hp : Outcome.mapList (PkgDoc.read C)
          ((l.packages.map (encodePackage l)).map (EncPackage.emit C l.version.encoded)) =
          .ok (l.packages.map (encodePackage l)) := by
        rw [mapList_map, mapList_map, mapList_eq_ok (g := encodePackage l)]
        intro p hp
        rw [encodePackage_v1 h.version, henc]
        obtain ⟨h1, h2, h3, h4, h5⟩ := h.packages p hp
        have hsrc : encSource p.source = p.source := encSource_id (fun x hx => (h2 x hx).1)
        apply read_package
        · exact h1
        · intro s hs
          simp only [EncPackage.ofPackage, hsrc] at hs
          exact h2 s hs
        · intro c hc; simp at hc
        · intro d hd
          simp only [EncPackage.ofPackage, List.mem_map] at hd
          obtain ⟨d0, hd0, rfl⟩ := hd
          exact read_dependency_full (h4 d0 hd0)
        · intro r hr
          simp only [EncPackage.ofPackage, Option.map_eq_some_iff] at hr
          obtain ⟨r0, hr0, rfl⟩ := hr
          obtain ⟨g1, g2⟩ := h5 r0 hr0
          refine ⟨?_, read_dependency_full g2⟩
          simp [g1, EncPackage.ofPackage]
      have hpatch : Outcome.mapList (PatchDoc.read C) (l.patch.map (emitPatch C)) = .ok l.patch := by
        rw [mapList_map, mapList_eq_ok (g := id)]
        · simp
        · intro d hd
          exact read_patch (h.patch d hd).1 (h.patch d hd).2
      have hver : emitVersion (if l.version.isExplicit then some l.version.toNat else none) =
          (if l.version.isExplicit then some l.version.toNat else none) := by
        cases l.version <;> rfl
      unfold LockDoc.read Lockfile.print EncLockfile.emit Lockfile.encode
      simp only
      rw [hp, hver]
      simp only [Outcome.bind_ok, readOptPkg]
      rw [hpatch]
      rfl
    have hversion : EncLockfile.resolveVersion { l.encode C with root := none } = .ok l.version := by
      have hv := h.version
      unfold EncLockfile.resolveVersion
      have h0 : (l.encode C).version = none := by
        unfold Lockfile.encode; simp only; rw [hv]; rfl
      simp only [h0]
      unfold ResolveVersion.detect
      have hm : ((l.encode C).metadata.any fun e => isChecksumKey e.1) = true := by
        obtain ⟨p, hp, hc⟩ := h.some_checksum
        cases hcc : p.checksum with
        | none => exact absurd hcc hc
        | some c =>
          rw [List.any_eq_true]
          refine ⟨_, hin p hp c hcc, ?_⟩
          unfold isChecksumKey checksumKey
          rw [List.isPrefixOf_iff_prefix]
          exact List.prefix_append _ _
      have hk : ((l.encode C).package.any fun p => p.checksum.isSome) = false := by
        rw [List.any_eq_false]
        intro e he
        simp only [Lockfile.encode, List.mem_map] at he
        obtain ⟨p, _, rfl⟩ := he
        rw [encodePackage_v1 hv]
        simp
      simp only [hm, hk]
      rw [hv]
      rfl
    unfold Lockfile.parse
    rw [hread]
    simp only [Outcome.bind_ok]
    unfold EncLockfile.decode
    rw [hversion]
    simp only [Outcome.bind_ok]
    have hpk : Outcome.mapList (decodePackage C { l.encode C with root := none } l.version)
        (l.encode C).package = .ok l.packages := by
      show Outcome.mapList _ (l.packages.map (encodePackage l)) = _
      rw [mapList_map, mapList_eq_ok (g := id)]
      · simp
      · intro p hp
        obtain ⟨h1, h2, h3, h4, h5⟩ := h.packages p hp
        have hsrc : encSource p.source = p.source := encSource_id (fun x hx => (h2 x hx).1)
        have hres : (encodePackage l p).resolve [] = .ok { p with checksum := none } := by
          rw [encodePackage_v1 h.version]
          unfold EncPackage.resolve
          simp only [EncPackage.ofPackage, hsrc]
          have hdeps : Outcome.mapList (fun d => EncDependency.resolve d [])
              (p.dependencies.map EncDependency.ofDependency) = .ok p.dependencies := by
            rw [mapList_map, mapList_eq_ok (g := id)]
            · simp
            · intro d hd
              exact resolve_full (fun x hx => ((h4 d hd).2.2 x hx).1)
          have hrep : resolveReplace (p.replace.map EncDependency.ofDependency) = .ok p.replace :=
            resolveReplace_full (fun d hd x hx => ((h5 d hd).2.2.2 x hx).1)
          rw [hdeps]
          simp only [Outcome.bind_ok]
          rw [hrep]
          rfl
        unfold decodePackage
        rw [if_pos h.version, hres]
        simp only [Outcome.bind_ok]
        have hfind := findChecksum_eq (C := C) (p := p) { p with checksum := none } ⟨rfl, rfl⟩
          (l.print C).metadata ?_ ?_
        · have hm : EncLockfile.metadata { l.encode C with root := none } = (l.print C).metadata := rfl
          rw [hm, hfind]
          rfl
        · intro e he d hd hn hv
          rw [hmetadef] at he
          rcases mem_foldl l.packages l.metadata he with he | ⟨q, hq, c, hc, rfl⟩
          · exact h.metadata e he d hd p hp hn hv
          · simp only at hd ⊢
            rw [keyDependency_key (hdep q hq)] at hd
            cases hd
            have hqp : q = p := h.distinct q hq p hp hn hv
            subst hqp
            exact ⟨c, C25_round_trip c (h3 c hc), hc⟩
        · intro c hc
          exact ⟨_, hin p hp c hc, _, keyDependency_key (hdep p hp), rfl, rfl⟩
    rw [hpk]
    simp only [Outcome.bind_ok, decodeRoot]
    have hroot := h.root
    obtain ⟨ver, pk, root, md, patch⟩ := l
    simp only at hroot
    subst hroot
    rfl
  · intro d hd
    simp only [Lockfile.print, EncLockfile.emit, Lockfile.encode, List.mem_map] at hd
    obtain ⟨e, ⟨p, _, rfl⟩, rfl⟩ := hd
    rw [encodePackage_v1 h.version]
    rfl

/-! ## Non-vacuity and violations -/

/-- A V1 lockfile with two packages with checksums, one without, and another metadata entry. -/
def sampleV1 : Lockfile :=
  { version := .v1,
    packages :=
      [{ name := "a".toList, version := ⟨1, 0, 0, [], []⟩,
         source := some { SourceId.default with precise := some "locked".toList },
         checksum := some (List.replicate 32 7) },
       { name := "b".toList, version := ⟨1, 0, 0, [], []⟩,
         source := some { SourceId.default with precise := some "locked".toList },
         checksum := some (List.replicate 32 9),
         dependencies := [⟨"a".toList, ⟨1, 0, 0, [], []⟩,
           some { SourceId.default with precise := some "locked".toList }⟩] },
       { name := "c".toList, version := ⟨1, 0, 0, [], []⟩ }],
    metadata := [("other".toList, "x".toList)] }

theorem sampleV1_wellFormed : WellFormedV1 toyCodec sampleV1 := by
  have v100 : VersionOk toyCodec ⟨1, 0, 0, [], []⟩ := ⟨by decide +kernel, by decide +kernel, by decide +kernel⟩
  have s1 : SourceOk toyCodec false { SourceId.default with precise := some "locked".toList } :=
    ⟨by decide, by decide +kernel, by decide +kernel⟩
  have hw : ∀ p ∈ sampleV1.packages, IsWord p.name := by
    intro p hp
    simp only [sampleV1, List.mem_cons, List.not_mem_nil, or_false] at hp
    rcases hp with rfl | rfl | rfl <;> exact ⟨by decide, by decide⟩
  constructor
  · rfl
  · rfl
  · exact hw
  · intro p hp
    simp only [sampleV1, List.mem_cons, List.not_mem_nil, or_false] at hp
    rcases hp with rfl | rfl | rfl
    · exact ⟨v100, fun s hs => by cases hs; exact s1, fun c hc => by cases hc; rfl, by simp, by simp⟩
    · refine ⟨v100, fun s hs => by cases hs; exact s1, fun c hc => by cases hc; rfl, ?_, by simp⟩
      intro d hd
      rw [List.mem_singleton] at hd
      subst hd
      exact ⟨⟨by decide, by decide⟩, v100, fun s hs => by cases hs; exact s1⟩
    · exact ⟨v100, by simp, by simp, by simp, by simp⟩
  · decide +kernel
  · intro d hd; cases hd
  · exact ⟨_, List.mem_cons_self, by simp⟩
  · intro e he d hd
    simp only [sampleV1, List.mem_singleton] at he
    subst he
    rw [show keyDependency toyCodec "other".toList = .err by decide +kernel] at hd
    cases hd

/-- The key written for a package. -/
example : (sampleV1.print toyCodec).metadata.map Prod.fst =
    ["checksum a 1.0.0 (registry+https://github.com/rust-lang/crates.io-index)".toList,
     "checksum b 1.0.0 (registry+https://github.com/rust-lang/crates.io-index)".toList,
     "other".toList] := by decide +kernel

/-- Two packages with the same name and version from different sources. -/
def twoSources : Lockfile :=
  { version := .v1,
    packages :=
      [{ name := "a".toList, version := ⟨1, 0, 0, [], []⟩, source := some (gitBranch "x" (some "abc")),
         checksum := some (List.replicate 32 7) },
       { name := "a".toList, version := ⟨1, 0, 0, [], []⟩,
         source := some { SourceId.default with precise := some "locked".toList },
         checksum := some (List.replicate 32 9) }] }

/-- C30, violation: checksums are looked up by name and version only, so of two packages that differ in the
source one reads back with the other's checksum. -/
theorem C30_two_sources : ∃ l' : Lockfile, Lockfile.parse toyCodec (twoSources.print toyCodec) = .ok l' ∧
    l'.packages.map (·.source) = twoSources.packages.map (·.source) ∧
    l'.packages.map (·.checksum) = [some (List.replicate 32 7), some (List.replicate 32 7)] := by
  refine ⟨{ twoSources with
      packages := twoSources.packages.map fun p => { p with checksum := some (List.replicate 32 7) },
      metadata := (twoSources.print toyCodec).metadata }, ?_, ?_, ?_⟩ <;> decide +kernel

/-- C30, violation: a V1 lockfile without any checksum reads back as V2. -/
theorem C30_no_checksum_becomes_v2 :
    Lockfile.parse toyCodec (Lockfile.print toyCodec
      { version := .v1, packages := [{ name := "a".toList, version := ⟨1, 0, 0, [], []⟩ }] }) =
    .ok { version := .v2, packages := [{ name := "a".toList, version := ⟨1, 0, 0, [], []⟩ }] } := by
  decide +kernel

/-! ### C62: which format a document has -/

private theorem bind_ok {α β : Type} {x : Outcome α} {f : α → Outcome β} {b : β} (h : (x >>= f) = .ok b) :
    ∃ a, x = .ok a ∧ f a = .ok b := by
  cases x with
  | ok a => exact ⟨a, rfl, h⟩
  | err => cases h
  | panic => cases h

private theorem mapList_ok {α β : Type} {f : α → Outcome β} : ∀ {l : List α} {r : List β},
    Outcome.mapList f l = .ok r → List.Forall₂ (fun a b => f a = .ok b) l r
  | [], r, h => by cases h; exact .nil
  | a :: l, r, h => by
    unfold Outcome.mapList at h
    cases ha : f a with
    | ok b =>
      rw [ha] at h
      cases hl : Outcome.mapList f l with
      | ok bs =>
        rw [hl] at h
        cases h
        exact .cons ha (mapList_ok hl)
      | err => rw [hl] at h; cases h
      | panic => rw [hl] at h; cases h
    | err => rw [ha] at h; cases h
    | panic => rw [ha] at h; cases h

private theorem checksum_read {C : Codec} {d : PkgDoc} {p : EncPackage} (h : d.read C = .ok p) :
    p.checksum.isSome = d.checksum.isSome := by
  unfold PkgDoc.read at h
  obtain ⟨v, _, h⟩ := bind_ok h
  obtain ⟨s, _, h⟩ := bind_ok h
  obtain ⟨c, hc, h⟩ := bind_ok h
  obtain ⟨ds, _, h⟩ := bind_ok h
  obtain ⟨r, _, h⟩ := bind_ok h
  cases h
  simp only
  cases hd : d.checksum with
  | none => rw [hd] at hc; cases hc; rfl
  | some t =>
    rw [hd] at hc
    unfold readOpt at hc
    cases ht : Checksum.fromStr t with
    | ok a => simp only [ht] at hc; cases hc; rfl
    | err => simp only [ht] at hc; cases hc
    | panic => simp only [ht] at hc; cases hc

/-- **C62** The format version of a lockfile that is read: the declared one, which must be 1 to 4; without a
declaration, V1 if some `[metadata]` key starts with `checksum ` and V2 otherwise; checksums both there and in
`[[package]]` tables are rejected. -/
theorem C62_format (C : Codec) (d : LockDoc) (l : Lockfile) (h : Lockfile.parse C d = .ok l) :
    (∀ n, d.version = some n → 1 ≤ n ∧ n ≤ 4 ∧ l.version.toNat = n) ∧
    (d.version = none →
      ((∃ e ∈ d.metadata, "checksum ".toList <+: e.1) → l.version = .v1 ∧ ∀ p ∈ d.packages, p.checksum = none) ∧
      ((∀ e ∈ d.metadata, ¬ "checksum ".toList <+: e.1) → l.version = .v2)) := by
  unfold Lockfile.parse at h
  obtain ⟨raw, hraw, h⟩ := bind_ok h
  unfold LockDoc.read at hraw
  obtain ⟨pk, hpk, hraw⟩ := bind_ok hraw
  obtain ⟨root, _, hraw⟩ := bind_ok hraw
  obtain ⟨pa, _, hraw⟩ := bind_ok hraw
  cases hraw
  unfold EncLockfile.decode at h
  obtain ⟨v, hv, h⟩ := bind_ok h
  obtain ⟨ps, _, h⟩ := bind_ok h
  obtain ⟨r, _, h⟩ := bind_ok h
  cases h
  unfold EncLockfile.resolveVersion at hv
  simp only at hv ⊢
  have hf := mapList_ok hpk
  constructor
  · intro n hn
    rw [hn] at hv
    simp only at hv
    unfold ResolveVersion.fromU32 at hv
    split at hv
    · cases hv; subst_vars; decide
    · split at hv
      · cases hv; subst_vars; decide
      · split at hv
        · cases hv; subst_vars; decide
        · split at hv
          · cases hv; subst_vars; decide
          · cases hv
  · intro hn
    rw [hn] at hv
    simp only at hv
    unfold ResolveVersion.detect at hv
    simp only at hv
    have hany : (d.metadata.any fun e => isChecksumKey e.1) = true ↔
        ∃ e ∈ d.metadata, "checksum ".toList <+: e.1 := by
      rw [List.any_eq_true]
      constructor
      · rintro ⟨e, he, h1⟩; exact ⟨e, he, List.isPrefixOf_iff_prefix.mp h1⟩
      · rintro ⟨e, he, h1⟩; exact ⟨e, he, List.isPrefixOf_iff_prefix.mpr h1⟩
    have hpkg : ∀ p ∈ d.packages, p.checksum ≠ none → (pk.any fun p => p.checksum.isSome) = true := by
      intro p hp hne
      have : ∀ {ds : List PkgDoc} {pk : List EncPackage}, List.Forall₂ (fun a b => PkgDoc.read C a = .ok b) ds pk →
          p ∈ ds → ∃ q ∈ pk, PkgDoc.read C p = .ok q := by
        intro ds pk hf
        induction hf with
        | nil => intro hp; cases hp
        | cons h1 _ ih =>
          intro hp
          rcases List.mem_cons.mp hp with rfl | hp
          · exact ⟨_, by simp, h1⟩
          · obtain ⟨q, hq, h2⟩ := ih hp
            exact ⟨q, by simp [hq], h2⟩
      obtain ⟨q, hq, h2⟩ := this hf hp
      rw [List.any_eq_true]
      refine ⟨q, hq, ?_⟩
      rw [checksum_read h2]
      cases hc : p.checksum with
      | none => exact absurd hc hne
      | some _ => rfl
    constructor
    · intro hex
      rw [hany.mpr hex] at hv
      cases hp : pk.any fun p => p.checksum.isSome with
      | true => rw [hp] at hv; cases hv
      | false =>
        rw [hp] at hv
        cases hv
        refine ⟨rfl, fun p hpm => ?_⟩
        cases hc : p.checksum with
        | none => rfl
        | some _ =>
          have := hpkg p hpm (by rw [hc]; nofun)
          rw [hp] at this
          cases this
    · intro hno
      have : (d.metadata.any fun e => isChecksumKey e.1) = false := by
        cases hb : d.metadata.any fun e => isChecksumKey e.1 with
        | false => rfl
        | true =>
          obtain ⟨e, he, h1⟩ := hany.mp hb
          exact absurd h1 (hno e he)
      rw [this] at hv
      cases hv
      rfl

/-- C62: a document with one package and a checksum in its table is V2; with the checksum in the metadata, V1;
with both it is rejected, unless it declares its version. -/
example :
    (let p : PkgDoc := { name := "a".toList, version := "1.0.0".toList }
     let c : Str := List.replicate 64 '7'
     let m : LockMetadata := [("checksum a 1.0.0".toList, c)]
     let v : Outcome Lockfile → Option ResolveVersion := fun o => match o with | .ok l => some l.version | _ => none
     v (Lockfile.parse toyCodec { packages := [{ p with checksum := some c }] }) = some .v2 ∧
     v (Lockfile.parse toyCodec { packages := [p], metadata := m }) = some .v1 ∧
     v (Lockfile.parse toyCodec { packages := [{ p with checksum := some c }], metadata := m }) = none ∧
     v (Lockfile.parse toyCodec { packages := [{ p with checksum := some c }], metadata := m, version := some 3 }) =
       some .v3) := by
  refine ⟨?_, ?_, ?_, ?_⟩ <;> decide +kernel

end Verif.Props
