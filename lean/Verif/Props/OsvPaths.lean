import Verif.Spec.OsvPaths
import Verif.Props.SitePaths
import Verif.Props.OsvExportExamples

/-!
# C112: where the osv command writes
-/

namespace Verif.Props

open Verif.Adv Verif.Web Verif.Export Verif.Assign Verif.Spec Verif.Git Verif.Osv

private theorem trim_name {x rest : Str} (hx : FileName x) : trimPath (x.reverse ++ rest) = x.reverse ++ rest := by
  obtain ⟨h1, h2, h3, -⟩ := hx
  have h2' : '/' ∉ x.reverse := by simpa using h2
  have h1' : x.reverse ≠ [] := by simpa using h1
  have h3' : x.reverse ≠ ['.'] := fun h => h3 (by rw [← List.reverse_reverse x, h]; rfl)
  generalize x.reverse = y at h1' h2' h3'
  match y with
  | [] => exact absurd rfl h1'
  | [c] =>
    have hc : c ≠ '/' := fun h => h2' (by rw [h]; exact List.mem_cons_self)
    have hd : c ≠ '.' := fun h => h3' (by rw [h])
    rw [List.cons_append, trimPath.eq_3]
    · intro r h; exact hc (List.cons.inj h).1
    · intro r h; exact hd (List.cons.inj h).1
  | c :: c' :: y =>
    have hc : c ≠ '/' := fun h => h2' (by rw [h]; exact List.mem_cons_self)
    have hc' : c' ≠ '/' := fun h => h2' (by rw [h]; exact List.mem_cons_of_mem _ List.mem_cons_self)
    rw [List.cons_append, List.cons_append, trimPath.eq_3]
    · intro r h; exact hc (List.cons.inj h).1
    · intro r h; exact hc' (List.cons.inj (List.cons.inj h).2).1

/-- The last name of a path is given the extension. -/
private theorem withJson_name {b x : Str} (hb : b = [] ∨ b.getLast? = some '/') (hx : FileName x) :
    withJson (b ++ x) = b ++ setJson x := by
  have hr : (b ++ x).reverse = x.reverse ++ b.reverse := List.reverse_append
  have hall : ∀ c ∈ x.reverse, (!decide (c = '/')) = true := by
    intro c hc
    have : c ≠ '/' := fun h => hx.2.1 (by rw [← h]; exact List.mem_reverse.mp hc)
    simp [this]
  have hstop : (b.reverse.takeWhile fun c => !decide (c = '/')) = [] ∧
      (b.reverse.dropWhile fun c => !decide (c = '/')) = b.reverse := by
    rcases hb with rfl | hb
    · exact ⟨rfl, rfl⟩
    · rw [← List.head?_reverse] at hb
      cases h : b.reverse with
      | nil => exact ⟨rfl, rfl⟩
      | cons c t =>
        rw [h] at hb
        cases hb
        exact ⟨rfl, rfl⟩
  unfold withJson
  dsimp only
  rw [hr, trim_name hx, List.takeWhile_append_of_pos hall, List.dropWhile_append_of_pos hall, hstop.1, hstop.2,
    List.append_nil, List.reverse_reverse, List.reverse_reverse,
    if_neg (by rintro (h | h | h); exacts [hx.1 h, hx.2.2.1 h, hx.2.2.2 h])]

private theorem setJson_ext (s : Str) : ∃ t, setJson s = t ++ ".json".toList ∧ ∀ c ∈ t, c ∈ s := by
  unfold setJson
  dsimp only
  refine ⟨_, rfl, ?_⟩
  split
  · rename_i stem h
    split
    · exact fun c hc => hc
    · intro c hc
      have h1 := List.mem_cons_of_mem '.' (List.mem_reverse.mp hc)
      rw [← h] at h1
      exact List.mem_reverse.mp (List.mem_of_mem_drop h1)
  · exact fun c hc => hc

private theorem split_flat' {s : Str} (h : '/' ∉ s) : splitC '/' s = [s] := by
  induction s with
  | nil => rfl
  | cons c t ih =>
    have hc : c ≠ '/' := fun e => h (by rw [e]; exact List.mem_cons_self)
    rw [splitC, if_neg hc, ih fun e => h (List.mem_cons_of_mem _ e)]

private theorem slashed_end (out : Str) : slashed out = [] ∨ (slashed out).getLast? = some '/' := by
  unfold slashed
  split
  · assumption
  · right; simp

private theorem join_rel (base p : Str) (h : p.head? ≠ some '/') : pathJoin base p = slashed base ++ p := by
  unfold pathJoin slashed
  rw [if_neg h]
  split
  · rfl
  · simp

private theorem path_inside (out : Str) {id : Str} (hid : FileName id) : Inside out (osvPath out id) := by
  unfold osvPath
  have hh : id.head? ≠ some '/' := fun h => hid.2.1 (List.mem_of_mem_head? h)
  rw [join_rel _ _ hh, withJson_name (slashed_end out) hid]
  obtain ⟨t, ht, hsub⟩ := setJson_ext id
  have hflat : '/' ∉ setJson id := by
    rw [ht, List.mem_append, not_or]
    exact ⟨fun h => hid.2.1 (hsub _ h), by decide⟩
  refine ⟨setJson id, rfl, fun h => hflat (List.mem_of_mem_head? h), ?_⟩
  unfold NoParent
  rw [split_flat' hflat, List.mem_singleton, ht]
  intro h
  have := congrArg List.getLast? h
  rw [List.getLast?_append_of_ne_nil _ (by decide)] at this
  exact absurd this (by decide)

/-- **Property C112.** `rustsec-admin osv` writes nothing outside the folder it is given (else the current one), in all its runs,
if the IDs of the advisories are names of files. -/
theorem C112_inside (W : ExportEnv) (d : Disk) (path : Option Str)
    (hid : ∀ f ∈ d.collection .crates, ∀ a, AdvisoryFile.fromStr W.adv f.2 = .ok a → FileName a.metadata.id.string) :
    ∀ p ∈ osvWritten W d path, Inside (path.getD ".".toList) p := by
  unfold osvWritten
  generalize path.getD ".".toList = out
  generalize d.collection .crates = fs at hid
  induction fs with
  | nil => intro p hp; cases hp
  | cons f fs ih =>
    have ih' := ih fun g hg => hid g (List.mem_cons_of_mem _ hg)
    intro p hp
    unfold osvPathsFrom at hp
    cases he : exportFile W f with
    | err => rw [he] at hp; cases hp
    | panic => rw [he] at hp; cases hp
    | ok o =>
      rw [he] at hp
      cases o with
      | none => exact ih' p hp
      | some w =>
        cases ha : AdvisoryFile.fromStr W.adv f.2 with
        | err => simp only [ha] at hp; cases hp
        | panic => simp only [ha] at hp; cases hp
        | ok a =>
          simp only [ha] at hp
          rcases List.mem_cons.mp hp with rfl | hp
          · exact path_inside out (hid f List.mem_cons_self a ha)
          · exact ih' p hp

private theorem ok_written (W : ExportEnv) (out : Str) (fs : List (Path × Str)) (hr : (exportFiles W fs).result = .ok ())
    (f : Path × Str) (hf : f ∈ fs) (a : AdvisoryFile) (ha : AdvisoryFile.fromStr W.adv f.2 = .ok a)
    (he : exportable a = true) : osvPath out a.metadata.id.string ∈ osvPathsFrom W out fs := by
  induction fs with
  | nil => cases hf
  | cons g fs ih =>
    unfold exportFiles at hr
    unfold osvPathsFrom
    cases hg : exportFile W g with
    | err => rw [hg] at hr; cases hr
    | panic => rw [hg] at hr; cases hr
    | ok o =>
      rw [hg] at hr
      cases o with
      | none =>
        rcases List.mem_cons.mp hf with rfl | hf
        · exfalso
          unfold exportFile at hg
          rw [ha] at hg
          simp only [he, if_true] at hg
          split at hg
          · obtain ⟨o, -, h2⟩ := bindOk hg
            cases h2
          · cases hg
        · exact ih hr hf
      | some w =>
        cases hb : AdvisoryFile.fromStr W.adv g.2 with
        | err => unfold exportFile at hg; rw [hb] at hg; cases hg
        | panic => unfold exportFile at hg; rw [hb] at hg; cases hg
        | ok b =>
          simp only
          rcases List.mem_cons.mp hf with rfl | hf
          · rw [ha] at hb
            cases hb
            exact List.mem_cons_self
          · exact List.mem_cons_of_mem _ (ih hr hf)

/-- The paths are those of the records that are written, one by one: each is for the ID of an advisory, from which the name of C67
is made. -/
theorem C112_writes (W : ExportEnv) (d : Disk) (path : Option Str) :
    List.Forall₂ (fun p w => ∃ id, p = osvPath (path.getD ".".toList) id ∧ w.1 = setJson id) (osvWritten W d path)
      (exportAll W d).writes := by
  have key : ∀ fs, List.Forall₂ (fun (p : Str) (w : Str × OsvAdvisory) => ∃ id, p = osvPath (path.getD ".".toList) id ∧ w.1 = setJson id)
      (osvPathsFrom W (path.getD ".".toList) fs) (exportFiles W fs).writes := by
    intro fs
    induction fs with
    | nil => exact .nil
    | cons g fs ih =>
      unfold exportFiles osvPathsFrom
      cases hg : exportFile W g with
      | err => exact .nil
      | panic => exact .nil
      | ok o =>
        cases o with
        | none => exact ih
        | some w =>
          unfold exportFile at hg
          cases hb : AdvisoryFile.fromStr W.adv g.2 with
          | err => rw [hb] at hg; cases hg
          | panic => rw [hb] at hg; cases hg
          | ok b =>
            rw [hb] at hg
            refine .cons ⟨b.metadata.id.display, rfl, ?_⟩ ih
            simp only at hg
            split at hg
            · split at hg
              · obtain ⟨o, -, h2⟩ := bindOk hg
                cases h2
                rfl
              · cases hg
            · cases hg
  unfold osvWritten exportAll
  split
  · rename_i h
    rw [List.isEmpty_iff] at h
    rw [h]
    exact .nil
  · exact key _

/-- **C112, violation**: nothing checks the ID of an exported file, neither against its name nor otherwise.  An ID that goes up
leads out of the folder, and one that starts with a slash to any place. -/
theorem C112_outside (W : ExportEnv) (d : Disk) (path : Option Str) (hr : (exportAll W d).result = .ok ())
    (f : Path × Str) (hf : f ∈ d.collection .crates) (a : AdvisoryFile) (ha : AdvisoryFile.fromStr W.adv f.2 = .ok a)
    (he : exportable a = true) (x : Str) (hx : FileName x) (hdot : '.' ∉ x) :
    (a.metadata.id.string = "../".toList ++ x →
      slashed (path.getD ".".toList) ++ ("../".toList ++ (x ++ ".json".toList)) ∈ osvWritten W d path) ∧
    (a.metadata.id.string = '/' :: x → '/' :: (x ++ ".json".toList) ∈ osvWritten W d path) := by
  have hr' : (exportFiles W (d.collection .crates)).result = .ok () := by
    unfold exportAll at hr
    split at hr
    · cases hr
    · exact hr
  have hm := ok_written W (path.getD ".".toList) _ hr' f hf a ha he
  have hjson : setJson x = x ++ ".json".toList := by
    unfold setJson
    dsimp only
    have : (x.reverse.takeWhile fun c => !decide (c = '.')) = x.reverse := by
      have hall : ∀ c ∈ x.reverse, (!decide (c = '.')) = true := by
        intro c hc
        have : c ≠ '.' := fun h => hdot (by rw [← h]; exact List.mem_reverse.mp hc)
        simp [this]
      have := List.takeWhile_append_of_pos (l₂ := []) hall
      simpa using this
    rw [this, List.drop_length]
  constructor
  · intro hi
    rw [hi] at hm
    unfold osvPath at hm
    rw [join_rel _ _ (by exact (by decide : ("../".toList).head? ≠ some '/')), ← List.append_assoc, withJson_name (.inr ?_) hx, hjson] at hm
    · rw [List.append_assoc] at hm
      exact hm
    · rw [List.getLast?_append_of_ne_nil _ (by decide)]; decide
  · intro hi
    rw [hi] at hm
    unfold osvPath at hm
    rw [show pathJoin (path.getD ".".toList) ('/' :: x) = '/' :: x from if_pos rfl, show '/' :: x = ['/'] ++ x from rfl, withJson_name (.inr rfl) hx, hjson] at hm
    exact hm

/-! ## Examples -/

/-- Libraries that know advisories with such IDs. -/
def pathsLib : AdvLib :=
  { exportLib with toml := fun s =>
      if s = "[advisory]\nup".toList then some (exportToml "../x" "foo" "2021-03-04" [] [">= 1.2.3"])
      else if s = "[advisory]\nroot".toList then some (exportToml "/x" "foo" "2021-03-04" [] [">= 1.2.3"])
      else if s = "[advisory]\nempty".toList then some (exportToml "" "foo" "2021-03-04" [] [">= 1.2.3"])
      else exportLib.toml s }

/-- An environment in which Git has all files. -/
def pathsEnv (d : Disk) : ExportEnv where
  adv := pathsLib
  cal := exportCal
  modTimes := { mtimes := d.map fun f => (gitPath f.1, ⟨86400 * 18691, 0⟩), ctimes := d.map fun f => (gitPath f.1, ⟨86400 * 18691, 0⟩) }
  tracked := fun _ => true

/-- The hypotheses of `C112_outside` are met, and an empty ID leads out of the folder as well. -/
example :
    let d : Disk := [exportFileOf "foo" "RUSTSEC-2021-0001.md" "one", exportFileOf "foo" "a.md" "up",
      exportFileOf "foo" "b.md" "root", exportFileOf "foo" "c.md" "empty"]
    (exportAll (pathsEnv d) d).result = .ok () ∧
    (osvWritten (pathsEnv d) d (some "out".toList)).map String.ofList =
      ["out/RUSTSEC-2021-0001.json", "out/../x.json", "/x.json", "out.json"] := by
  decide +kernel

/-- The hypotheses of `C112_inside` are met. -/
example :
    let d : Disk := [exportFileOf "foo" "RUSTSEC-2021-0001.md" "one"]
    (∀ f ∈ d.collection .crates, ∀ a, AdvisoryFile.fromStr (pathsEnv d).adv f.2 = .ok a → FileName a.metadata.id.string) ∧
    (osvWritten (pathsEnv d) d none).map String.ofList = ["./RUSTSEC-2021-0001.json"] := by
  refine ⟨fun f hf a ha => ?_, by decide +kernel⟩
  have key : ∀ f ∈ [exportFileOf "foo" "RUSTSEC-2021-0001.md" "one"],
      ∀ a, AdvisoryFile.fromStr pathsLib f.2 = .ok a → a.metadata.id.string = "RUSTSEC-2021-0001".toList := by
    intro f hf a ha
    rw [List.mem_singleton] at hf
    subst hf
    have h : (match AdvisoryFile.fromStr pathsLib (exportFileOf "foo" "RUSTSEC-2021-0001.md" "one").2 with
      | .ok a => decide (a.metadata.id.string = "RUSTSEC-2021-0001".toList)
      | _ => false) = true := by decide +kernel
    rw [ha] at h
    exact of_decide_eq_true h
  rw [key f (List.mem_of_mem_filter hf) a ha]
  unfold FileName
  decide +kernel

end Verif.Props
