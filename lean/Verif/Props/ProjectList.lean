import Verif.Props.ListVersions
import Verif.Props.ProjectLoad
import Verif.Spec.ProjectList

/-!
# C104: from the texts of a database to the listing of affected versions
-/

namespace Verif.Props

open Verif Verif.Semver Verif.Osv Verif.Adv Verif.Audit Verif.Spec Verif.Db Verif.Assign Verif.ListVersions
open Verif.AuditJson (withCollection)
open Verif.AdminLint (Checkout)

variable {P : Project} {ch : Checkout} {db : Database}

private theorem on_crates (h : Database.open (ch.tree P.advLib P.severityOf) = .ok db) (a : Advisory) :
    a ∈ onCrates db ↔ ∃ f, Published P.advLib ch .crates f ∧ a = toAdvisory P.severityOf (withCollection .crates f) := by
  unfold onCrates
  rw [List.mem_filter, mem_db h, decide_eq_true_eq]
  constructor
  · rintro ⟨⟨col, text, f, h1, h2, h3, rfl⟩, hc⟩
    have hcol : col = .crates := Option.some.inj hc
    subst hcol
    exact ⟨f, ⟨text, h1, h2, h3⟩, rfl⟩
  · rintro ⟨f, ⟨text, h1, h2, h3⟩, rfl⟩
    exact ⟨⟨.crates, text, f, h1, h2, h3, rfl⟩, rfl⟩

private theorem line_on {E : ListEnv} (hv : E.version = readVersion) (f : AdvisoryFile) (text : Str) (s : Said) :
    VerdictOn E (toAdvisory P.severityOf (withCollection .crates f)) text s ↔ LineOn f text s := by
  unfold VerdictOn LineOn Hit
  refine exists_congr fun v => ?_
  rw [hv, C90_version, and_assoc]
  refine and_congr_right fun _ => and_congr_right fun _ => or_congr Iff.rfl (and_congr_left fun _ => ?_)
  show (¬ ∀ r ∈ f.versions.patched ++ f.versions.unaffected, ¬ Covers r v) ↔ _
  simp only [not_forall, not_not, exists_prop]

private theorem block_on {E : ListEnv} (hv : E.version = readVersion) (index : Str → Answer) (f : AdvisoryFile)
    (block : List Said) :
    SaidOf E index (toAdvisory P.severityOf (withCollection .crates f)) block ↔ BlockOn index f block := by
  unfold SaidOf BlockOn
  refine exists_congr fun versions => exists_congr fun below => and_congr Iff.rfl (and_congr Iff.rfl ?_)
  have : (VerdictOn E (toAdvisory P.severityOf (withCollection .crates f))) = LineOn f := by
    funext t s
    exact propext (line_on hv f t s)
  rw [this]

/-- **Property C104** (the listing): if the command succeeds, it has printed one block for each published advisory on a crate
in the database, and nothing else. -/
theorem C104_lists (P : Project) (E : ListEnv) (hL : E.adv = P.advLib) (hs : E.sev = P.severityOf) (hv : E.version = readVersion)
    (at_ : Str → Checkout) (paths : List Str) (h : (listCommand E at_ paths).result = .ok ()) :
    ∃ path index, ∃ blocks : List (List Said), OnePath paths path ∧ E.index = some index ∧ (listCommand E at_ paths).said = blocks.flatten ∧
      (∀ block ∈ blocks, ∃ f, Published P.advLib (at_ path) .crates f ∧ BlockOn index f block) ∧
      (∀ f, Published P.advLib (at_ path) .crates f → ∃ block ∈ blocks, BlockOn index f block) ∧
      blocks.Pairwise (fun x y => ∀ i p j q, x.head? = some (.loaded i p) → y.head? = some (.loaded j q) → i ≠ j) := by
  obtain ⟨path, db, index, blocks, h1, h2, h3, h4, h5⟩ := C72_lists E (by rw [hL]; exact semver_reqWF rfl) at_ paths h
  rw [hL, hs] at h2
  refine ⟨path, index, blocks, h1, h3, h5, fun block hb => ?_, fun f hf => ?_, ?_⟩
  · obtain ⟨a, ha, hsa⟩ := forall2_right h4 block hb
    obtain ⟨f, hf, rfl⟩ := (on_crates h2 a).mp ha
    exact ⟨f, hf, (block_on hv index f block).mp hsa⟩
  · obtain ⟨block, hb, hsa⟩ := forall2_left h4 ((on_crates h2 _).mpr ⟨f, hf, rfl⟩)
    exact ⟨block, hb, (block_on hv index f block).mp hsa⟩
  · have hnd : (onCrates db).Pairwise fun a b => a.metadata.id ≠ b.metadata.id := by
      have := C10_ids_unique _ db h2
      rw [List.Nodup, List.pairwise_map] at this
      exact this.sublist List.filter_sublist
    have key : ∀ (as : List Advisory) (bs : List (List Said)), List.Forall₂ (SaidOf E index) as bs →
        as.Pairwise (fun a b => a.metadata.id ≠ b.metadata.id) →
        bs.Pairwise (fun x y => ∀ i p j q, x.head? = some (.loaded i p) → y.head? = some (.loaded j q) → i ≠ j) := by
      intro as bs hf
      induction hf with
      | nil => intro _; exact .nil
      | @cons a b as bs hab hrest ih =>
        intro hp
        rw [List.pairwise_cons] at hp ⊢
        refine ⟨fun y hy i p j q hi hj hij => ?_, ih hp.2⟩
        obtain ⟨a', ha', vs', below', -, rfl, -⟩ := forall2_right hrest y hy
        obtain ⟨vs, below, -, rfl, -⟩ := hab
        cases hi
        cases hj
        exact hp.1 a' ha' hij
    exact key _ _ h4 hnd

/-- **Property C104** (success): the command succeeds exactly if the database can be read and has an advisory that is published, the index
can be opened, cargo's lock is free, and for each published advisory on a crate the registry has the crate, with versions
that are semantic versions. -/
theorem C104_finishes (P : Project) (E : ListEnv) (hL : E.adv = P.advLib) (hs : E.sev = P.severityOf)
    (hv : E.version = readVersion) (at_ : Str → Checkout) (paths : List Str) (path : Str) (hp : OnePath paths path) :
    (listCommand E at_ paths).result = .ok () ↔
      ∃ index, DatabaseReads P.advLib (at_ path) ∧ E.index = some index ∧ (∃ col f, Published P.advLib (at_ path) col f) ∧
        ∀ f, Published P.advLib (at_ path) .crates f → E.lockFree = true ∧ E.validName f.metadata.package = true ∧
          ∃ versions, index f.metadata.package = .found versions ∧ ∀ t ∈ versions, ∃ v : Version, v.Valid ∧ t = v.text := by
  rw [(C72_finishes E (by rw [hL]; exact semver_reqWF rfl) at_ paths path hp).1, hL, hs, hv]
  constructor
  · rintro ⟨db, index, h1, h2, h3, h4⟩
    refine ⟨index, (C91_database P _).mp ⟨db, h1⟩, h2, ?_, fun f hf => ?_⟩
    · obtain ⟨a, ha⟩ := List.exists_mem_of_ne_nil _ h3
      obtain ⟨col, text, f, a1, a2, a3, -⟩ := (mem_db h1 a).mp ha
      exact ⟨col, f, text, a1, a2, a3⟩
    · obtain ⟨b1, b2, vs, b3, b4⟩ := h4 _ ((on_crates h1 _).mpr ⟨f, hf, rfl⟩)
      refine ⟨b1, b2, vs, b3, fun t ht => ?_⟩
      obtain ⟨v, hv⟩ := b4 t ht
      exact ⟨v, (C90_version _ _).mp hv⟩
  · rintro ⟨index, h1, h2, ⟨col, f, text, a1, a2, a3⟩, h4⟩
    obtain ⟨db, h1⟩ := (C91_database P _).mpr h1
    refine ⟨db, index, h1, h2, List.ne_nil_of_mem ((mem_db h1 _).mpr ⟨col, text, f, a1, a2, a3, rfl⟩), fun a ha => ?_⟩
    obtain ⟨f, hf, rfl⟩ := (on_crates h1 a).mp ha
    obtain ⟨b1, b2, vs, b3, b4⟩ := h4 f hf
    refine ⟨b1, b2, vs, b3, fun t ht => ?_⟩
    obtain ⟨v, hv⟩ := b4 t ht
    exact ⟨v, (C90_version _ _).mpr hv⟩

/-- **Property C104** (truth): however the command ends, each line about a version is true of a published advisory on a crate and of a version
that the registry has of it. -/
theorem C104_truthful (P : Project) (E : ListEnv) (hL : E.adv = P.advLib) (hs : E.sev = P.severityOf)
    (hv : E.version = readVersion) (at_ : Str → Checkout) (paths : List Str) (path : Str) (hp : OnePath paths path) (t : Str)
    (ht : Said.line t ∈ (listCommand E at_ paths).said) :
    ∃ index f versions, E.index = some index ∧ Published P.advLib (at_ path) .crates f ∧
      index f.metadata.package = .found versions ∧ ∃ text ∈ versions, LineOn f text (.line t) := by
  obtain ⟨db, index, h1, h2, a, ha, vs, h3, text, h4, h5⟩ :=
    C72_truthful E (by rw [hL]; exact semver_reqWF rfl) at_ paths path hp t ht
  rw [hL, hs] at h1
  obtain ⟨f, hf, rfl⟩ := (on_crates h1 a).mp ha
  exact ⟨index, f, vs, h2, hf, h3, text, h4, (line_on hv f text _).mp h5⟩

end Verif.Props
