import Verif.Props.ListVersions
import Verif.Props.AdminLintExamples
import Verif.Props.Lockfile

/-!
# C72: concrete cases and violations
-/

namespace Verif.Props

open Verif.Adv Verif.Db Verif.Assign Verif.AdminLint Verif.Semver Verif.Osv Verif.ListVersions Verif.Spec

/-- C72, violation: although the command is there to check the versions of an advisory before it is published, a draft
(of ID `RUSTSEC-0000-0000`) is never listed. -/
theorem C72_drafts_not_listed (E : ListEnv) (hreq : ∀ s r, E.adv.req s = some r → ReqWF r) (at_ : Str → Checkout)
    (paths : List Str) (h : (listCommand E at_ paths).result = .ok ()) (id : Id) (package : Str)
    (hm : Said.loaded id package ∈ (listCommand E at_ paths).said) : id.string ≠ "RUSTSEC-0000-0000".toList := by
  obtain ⟨path, db, index, blocks, -, ho, -, hb, hs⟩ := C72_lists E hreq at_ paths h
  rw [hs] at hm
  obtain ⟨block, hbm, hin⟩ := List.mem_flatten.mp hm
  obtain ⟨a, ha, versions, below, -, rfl, hv⟩ := forall2_left hb.flip hbm
  rcases List.mem_cons.mp hin with e | e
  · cases e
    obtain ⟨_, _, _, _, _, _, _, h⟩ := C18_loaded_well_placed _ db ho a (List.mem_filter.mp ha).1
    exact h
  · obtain ⟨t, -, v, -, (⟨-, e⟩ | ⟨-, e⟩)⟩ := forall2_left hv.flip e <;> cases e

/-- crates.io has three versions of `foo`. -/
def listIndex (name : Str) : Answer :=
  if name = "foo".toList then .found ["0.9.0".toList, "1.2.3".toList, "1.2.2".toList] else .missing

/-- The environment of the examples. -/
def listEnv : ListEnv := ⟨exportLib, noSev, some listIndex, fun _ => true, toyCodec.parseVersion, true⟩

/-- Non-vacuity of C72: the versions of an advisory patched in `>= 1.2.3`; the draft beside it is not listed. -/
example : (listCommand listEnv (fun _ => checkoutOf exportDisk) []).said.filterMap (fun s =>
      match s with | .line t => some t | .loaded i _ => some i.display) =
      ["RUSTSEC-2021-0001", "0.9.0 vulnerable", "1.2.3 OK", "1.2.2 vulnerable"].map String.toList ∧
    (listCommand listEnv (fun _ => checkoutOf exportDisk) []).result = .ok () ∧
    (∀ s r, listEnv.adv.req s = some r → ReqWF r) ∧ OnePath [] ".".toList := by
  refine ⟨by decide +kernel, by decide +kernel, exportLib_laws.req, .inl ⟨rfl, rfl⟩⟩

/-- Non-vacuity of `C72_deleted_panics`: the registry has nothing any more; and nothing but the name is said. -/
example : (listCommand { listEnv with index := some fun _ => .missing } (fun _ => checkoutOf exportDisk) []).result = .panic ∧
    (listCommand { listEnv with index := some fun _ => .missing } (fun _ => checkoutOf exportDisk) []).said.length = 1 := by
  refine ⟨?_, ?_⟩ <;> decide +kernel

/-- A lock that is taken, or a version that cannot be read, is a panic too; an empty database exit status 1. -/
example : (listCommand { listEnv with lockFree := false } (fun _ => checkoutOf exportDisk) []).result = .panic ∧
    (listCommand { listEnv with index := some fun _ => .found ["x".toList] } (fun _ => checkoutOf exportDisk) []).result =
      .panic ∧
    (listCommand listEnv (fun _ => checkoutOf []) []).result = .err := by
  refine ⟨?_, ?_, ?_⟩ <;> decide +kernel

end Verif.Props
