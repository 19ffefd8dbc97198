import Verif.Props.Project

/-!
# C91: when the database can be read, and when the run succeeds
-/

namespace Verif.Props

open Verif Verif.Semver Verif.Osv Verif.Lock Verif.Adv Verif.Audit Verif.Toml Verif.Spec Verif.Db
open Verif.AdminLint (Checkout Entry)

/-- What `Database::open` makes of a file. -/
private def pathOf (L : AdvLib) (sev : Cvss.Cvss → Severity) (x : Collection × Str × AdminLint.Item) : AdvPath :=
  ⟨x.1, x.2.1, AdminLint.Item.toFile L sev x.2.2⟩

private theorem toFile_name (L : AdvLib) (sev : Cvss.Cvss → Severity) (i : AdminLint.Item) : (AdminLint.Item.toFile L sev i).name = i.name := by
  rcases i with ⟨n, _ | t⟩ | n <;> rfl

private theorem startsWith_dot (s : Str) : startsWith s "." = decide (s.head? = some '.') := by
  rcases s with _ | ⟨c, s⟩
  · rfl
  · rw [Bool.eq_iff_iff, startsWith_iff]
    simp [eq_comm]

private theorem paths_collection (L : AdvLib) (sev : Cvss.Cvss → Severity) (col : Collection) (es : List Entry) :
    collectionPaths col (es.map (Entry.toDir L sev)) = (es.flatMap fun
      | .dir dir items => (items.filter fun i => !decide (i.name.head? = some '.')).map fun i => (col, dir, i)
      | .other _ => []).map (pathOf L sev) := by
  unfold collectionPaths
  rw [List.flatMap_map, List.map_flatMap]
  congr 1
  funext e
  cases e with
  | other n => rfl
  | dir n items =>
    show ((items.map (AdminLint.Item.toFile L sev)).filter _).map _ = _
    rw [List.filter_map, List.map_map, List.map_map]
    congr 1
    congr 1
    funext i
    show (!startsWith (AdminLint.Item.toFile L sev i).name ".") = _
    rw [toFile_name, startsWith_dot]

private theorem paths_eq (L : AdvLib) (sev : Cvss.Cvss → Severity) (ch : Checkout) (h : ch.crates ≠ none) :
    advisoryPaths (ch.tree L sev) = .ok ((advisoryFiles ch).map (pathOf L sev)) := by
  obtain ⟨cs, hcs⟩ := Option.ne_none_iff_exists'.mp h
  unfold advisoryPaths Checkout.tree advisoryFiles Checkout.listing
  simp only [hcs, Option.map_some, List.flatMap_cons, List.flatMap_nil, List.append_nil, Option.getD_some, List.map_append]
  rw [paths_collection]
  cases ch.rust with
  | none => rfl
  | some rs =>
    simp only [Option.map_some, Option.getD_some]
    rw [paths_collection]
    rfl

private theorem content_iff (L : AdvLib) (sev : Cvss.Cvss → Severity) (i : AdminLint.Item) (a : Advisory) :
    (AdminLint.Item.toFile L sev i).content = .ok a ↔ ∃ name text f, i = .file name (some text) ∧ AdvisoryOf L text f ∧
      a = Assign.toAdvisory sev f := by
  rcases i with ⟨n, _ | t⟩ | n
  · exact ⟨(fun h => by cases h), (fun ⟨_, _, _, h, _⟩ => by cases h)⟩
  · show Assign.loadText L sev t = .ok a ↔ _
    unfold Assign.loadText
    constructor
    · intro h
      split at h
      · rename_i f hf
        cases h
        exact ⟨n, t, f, rfl, (C68_parsed_iff L t f).mp hf, rfl⟩
      · cases h
      · cases h
    · rintro ⟨_, _, f, he, hf, rfl⟩
      cases he
      rw [(C68_parsed_iff L t f).mpr hf]
  · exact ⟨(fun h => by cases h), (fun ⟨_, _, _, h, _⟩ => by cases h)⟩

/-- **Property C91** (the database): the database can be loaded exactly if its texts can be read, are where they belong and
have different IDs. -/
theorem C91_database (P : Project) (ch : Checkout) :
    (∃ db, Database.open (ch.tree P.advLib P.severityOf) = .ok db) ↔ DatabaseReads P.advLib ch := by
  rw [(C18_opens_iff _).1]
  by_cases hl : ch.crates = none
  · constructor
    · rintro ⟨ps, hps, -⟩
      unfold advisoryPaths Checkout.tree at hps
      rw [hl] at hps
      cases hps
    · intro h
      exact absurd hl h.listed
  rw [paths_eq _ _ ch hl]
  constructor
  · rintro ⟨ps, hps, hw, hd⟩
    cases hps
    refine ⟨hl, ?_, ?_⟩
    · intro col dir item hx
      obtain ⟨a, hc, h1, h2, h3⟩ := hw _ (List.mem_map_of_mem hx)
      obtain ⟨name, text, f, hi, hf, rfl⟩ := (content_iff _ _ _ _).mp hc
      have hi : item = .file name (some text) := hi
      subst hi
      refine ⟨name, text, f, rfl, hf, h1.symm, ?_, h3⟩
      intro col' hcol
      rcases h2 with h2 | h2
      · have h2 : f.metadata.collection = none := h2
        rw [hcol] at h2; cases h2
      · have h2 : f.metadata.collection = some col := h2
        rw [hcol] at h2; cases h2; rfl
    · rw [List.pairwise_map] at hd
      refine hd.imp ?_
      intro x y h name name' text text' f f' hx hy hf hf' he
      exact h _ _ ((content_iff _ _ _ _).mpr ⟨name, text, f, hx, hf, rfl⟩)
        ((content_iff _ _ _ _).mpr ⟨name', text', f', hy, hf', rfl⟩) he
  · intro h
    refine ⟨_, rfl, ?_, ?_⟩
    · intro p hp
      obtain ⟨⟨col, dir, item⟩, hx, rfl⟩ := List.mem_map.mp hp
      obtain ⟨name, text, f, rfl, hf, h1, h2, h3⟩ := h.placed col dir item hx
      refine ⟨Assign.toAdvisory P.severityOf f, (content_iff _ _ _ _).mpr ⟨name, text, f, rfl, hf, rfl⟩, h1.symm, ?_, h3⟩
      cases hcol : f.metadata.collection with
      | none => exact .inl hcol
      | some col' => exact .inr (hcol.trans (congrArg some (h2 col' hcol)))
    · rw [List.pairwise_map]
      refine h.distinct.imp ?_
      intro x y hxy a a' ha ha' he
      obtain ⟨name, text, f, hx, hf, rfl⟩ := (content_iff _ _ _ _).mp ha
      obtain ⟨name', text', f', hy, hf', rfl⟩ := (content_iff _ _ _ _).mp ha'
      exact hxy name name' text text' f f' hx hy hf hf' he

/-- **Property C91** (success, exactly): if the dependency tree can be built wherever it is needed, `cargo audit` exits with 0
exactly if the configuration, the lockfile and the database can be read and their texts are not damning. -/
theorem C91_iff (P : Project) (hF : P.fp.Ok) (cmd : AuditCommand)
    (hpr : ∀ c text l, Configured P cmd c → LockOf P cmd.file text →
      Lockfile.fromText (semverCodec P.url) Toml.read text = .ok l → Printable c l) :
    (P.run cmd).2 = .code 0 ↔
      ∃ c text ch, Configured P cmd c ∧ LockOf P cmd.file text ∧
        (∃ l, Lockfile.fromText (semverCodec P.url) Toml.read text = .ok l) ∧ CheckoutOf P c ch ∧
        DatabaseReads P.advLib ch ∧ ¬ Damning P cmd.file c ch text := by
  constructor
  · intro h0
    obtain ⟨c, text, l, ch, db, h1, h2, h3, h4, h5, h6⟩ := C91_success P hF cmd h0
    exact ⟨c, text, ch, h1, h2, ⟨l, h3⟩, h4, (C91_database P ch).mp ⟨db, h5⟩, h6⟩
  · rintro ⟨c, text, ch, h1, h2, ⟨l, h3⟩, h4, h5, h6⟩
    obtain ⟨db, h5⟩ := (C91_database P ch).mpr h5
    obtain ⟨r, out, n, hrun, -, -, hn, hd⟩ := C91_verdict P hF cmd c h1 text h2 l h3 ch h4 db h5 (hpr c text l h1 h2 h3)
    rw [hrun]
    rcases hn with rfl | rfl
    · rfl
    · exact absurd (hd.mp rfl) h6

end Verif.Props
