import Verif.Props.Quitters
import Verif.Props.Lockfile

/-!
# C57: binaries that meet the hypotheses, and binaries from which crates are not recovered
-/

namespace Verif.Props

open Verif.Bin Verif.Spec Verif.Lock Verif.Semver Verif.Sync

/-- The hypothesis of `C57_exact`, as a test. -/
def noCargoB (data : List UInt8) : Bool :=
  [slash, backslash].all fun sep => (List.range (data.length + 1)).all fun pos =>
    (matchAll (pathRegex sep) (data.drop pos)).all fun m =>
      !((bytes "cargo").isSuffixOf (captured (pathRegex sep) m.1 .version))

theorem noCargo_of {data : List UInt8} (h : noCargoB data = true) (sep : UInt8) (hs : sep = slash ∨ sep = backslash)
    (pos : Nat) (dir crate version : List UInt8) (hp : PathAt sep data pos dir crate version) :
    ¬ bytes "cargo" <:+ version := by
  obtain ⟨m, r, hm, -, e⟩ := match_pathAt hp
  have hpos : pos < data.length + 1 := by
    by_contra hlt
    obtain ⟨t, ht⟩ := hp.text
    rw [List.drop_eq_nil_of_le (by omega)] at ht
    have := congrArg List.length ht
    simp only [registryPath, List.length_append, List.length_cons, List.length_nil] at this
    omega
  unfold noCargoB at h
  have h1 := List.all_eq_true.mp h sep (by rcases hs with rfl | rfl <;> simp)
  have h2 := List.all_eq_true.mp h1 pos (List.mem_range.mpr hpos)
  have h3 := List.all_eq_true.mp h2 _ hm
  simp only [e, Bool.not_eq_true'] at h3
  intro hsuf
  rw [← List.isSuffixOf_iff_suffix] at hsuf
  rw [h3] at hsuf
  cases hsuf

/-- Two panic messages of one crate and one of another, with other bytes around them; one path is not in the cache. -/
def panicText : List UInt8 :=
  bytes "\n/cargo/registry/src/x-1/b-a-2.0.1/src/lib.rsoops" ++ [0, 255] ++
  bytes "C:/cargo/registry/src/x-1/a_1-1.0.0/l.rs/cargo/registry/src/y/a_1-1.0.0/k.rs/cargo/src/c-1.0.0/m.rs"

/-- What is recovered from it; the hypothesis of `C57_exact` holds. -/
example : versions toyCodec.parseVersion panicText =
    [("a_1".toList, ⟨1, 0, 0, [], []⟩), ("b-a".toList, ⟨2, 0, 1, [], []⟩)] := by decide +kernel

example (sep : UInt8) (hs : sep = slash ∨ sep = backslash) (pos : Nat) (dir crate version : List UInt8) :
    PathAt sep panicText pos dir crate version → ¬ bytes "cargo" <:+ version :=
  noCargo_of (by decide +kernel) sep hs pos dir crate version

/-- A path of `C57_complete`. -/
example : PathAt slash panicText 2 (bytes "x-1") (bytes "b-a") (bytes "2.0.1") := by
  refine ⟨⟨by decide, by decide⟩, ⟨by decide, ?_⟩, ⟨[50], [48], [49], [], by decide, ?_, ?_, ?_, by simp⟩, ?_⟩
  · intro b hb
    rw [← isCrateB_iff]
    revert b
    decide
  · exact ⟨by decide, fun b hb => (isDigitB_iff b).mp (by revert b; decide)⟩
  · exact ⟨by decide, fun b hb => (isDigitB_iff b).mp (by revert b; decide)⟩
  · exact ⟨by decide, fun b hb => (isDigitB_iff b).mp (by revert b; decide)⟩
  · exact List.isPrefixOf_iff_prefix.mp (by decide +kernel)

/-- Backslashes. -/
example : versions toyCodec.parseVersion (bytes "C:\\.cargo\\registry\\src\\g\\rustc-demangle-0.1.21\\src\\l.rs") =
    [("rustc-demangle".toList, ⟨0, 1, 21, [], []⟩)] := by decide +kernel

/-- **C57, violation: mixed separators.**  If there is any path with slashes, the crates in paths with backslashes
are not recovered: here `b` is missed. -/
theorem C57_mixed_separators : ∃ data, PathAt backslash data 29 (bytes "g") (bytes "b") (bytes "1.0.0") ∧
    versions toyCodec.parseVersion data = [("a".toList, ⟨1, 0, 0, [], []⟩)] := by
  refine ⟨bytes "cargo/registry/src/g/a-1.0.0/cargo\\registry\\src\\g\\b-1.0.0\\", ⟨⟨by decide, by decide⟩,
    ⟨by decide, ?_⟩, ⟨[49], [48], [48], [], by decide, ?_, ?_, ?_, by simp⟩, ?_⟩, by decide +kernel⟩
  · intro b hb
    rw [← isCrateB_iff]
    revert b
    decide
  · exact ⟨by decide, fun b hb => (isDigitB_iff b).mp (by revert b; decide)⟩
  · exact ⟨by decide, fun b hb => (isDigitB_iff b).mp (by revert b; decide)⟩
  · exact ⟨by decide, fun b hb => (isDigitB_iff b).mp (by revert b; decide)⟩
  · exact List.isPrefixOf_iff_prefix.mp (by decide +kernel)

/-- The overlap of `C57_overlap` happens: `b` is not recovered. -/
example : versions (fun s => if s = "1.0.0-cargo".toList then some ⟨1, 0, 0, [.alpha "cargo".toList], []⟩ else
      toyCodec.parseVersion s) (bytes "cargo/registry/src/g/a-1.0.0-cargo/registry/src/g/b-1.0.0/") =
    [("a".toList, ⟨1, 0, 0, [.alpha "cargo".toList], []⟩)] := by decide +kernel

end Verif.Props
