import Verif.Lemmas.TomlKeys
import Verif.Props.AdminLint
import Verif.Props.ProjectLoad
import Verif.Spec.ProjectLint

/-!
# C94: `rustsec-admin lint` from texts

C69 assumes two laws of the TOML parser.  Here they are proved for the reader of the specification of TOML, and the verdict
of the command is a statement about the texts of the checkout.
-/

namespace Verif.Props

open Verif.Adv Verif.Db Verif.Assign Verif.Lint Verif.AdminLint Verif.Audit Verif.Spec Verif.Toml

theorem plainEntries_keys (t : Table) : (plainEntries t).map (·.1) = t.map (·.1) := by
  induction t with
  | nil => rfl
  | cons e t ih => obtain ⟨k, v⟩ := e; simp [plainEntries, ih]

theorem plainEntries_lookup (t : Table) (k : Str) : (plainEntries t).lookup k = (t.lookup k).map plainToml := by
  induction t with
  | nil => rfl
  | cons e t ih =>
    obtain ⟨j, v⟩ := e
    rw [plainEntries, List.lookup_cons, List.lookup_cons, ih]
    split <;> rfl

theorem plainToml_table {v : Value} {m : TomlTable} (h : plainToml v = .table m) : ∃ t, v = .table t ∧ m = plainEntries t := by
  cases v with
  | table t => rw [plainToml] at h; cases h; exact ⟨t, rfl, rfl⟩
  | str | int | bool | arr => rw [plainToml] at h; cases h

theorem plainToml_str {v : Value} {s : Str} (h : plainToml v = .str s) : v = .str s := by
  cases v with
  | str t => rw [plainToml] at h; cases h; rfl
  | table | int | bool | arr => rw [plainToml] at h; cases h

/-- **Property C94** (TOML): the keys of a document are distinct. -/
theorem C94_distinct (P : Project) : DistinctKeys P.advLib.toml := by
  intro fm t h
  obtain ⟨t', h', rfl⟩ := Option.map_eq_some_iff.mp h
  have := read_distinct h'
  rw [← plainEntries_keys] at this
  exact this

/-- **Property C94** (TOML): if a text parses as it is and under the line `[advisory]`, the strings of that table are values
of top-level keys of the text. -/
theorem C94_header (P : Project) : HeaderLaw P.advLib.toml := by
  intro fm t t' m _ h h' hm k s hk
  obtain ⟨u, hu, rfl⟩ := Option.map_eq_some_iff.mp h
  obtain ⟨u', hu', rfl⟩ := Option.map_eq_some_iff.mp h'
  rw [plainEntries_lookup, Option.map_eq_some_iff] at hm
  obtain ⟨v, hv, hvm⟩ := hm
  obtain ⟨w, rfl, rfl⟩ := plainToml_table hvm
  rw [plainEntries_lookup, Option.map_eq_some_iff] at hk
  obtain ⟨x, hx, hxs⟩ := hk
  rw [plainToml_str hxs] at hx
  have := read_under hu hu' hv hx
  rw [← plainEntries_keys] at this
  obtain ⟨e, he, hek⟩ := List.mem_map.mp this
  exact ⟨e.2, by rw [← hek]; exact he⟩

/-- **Property C94**: `rustsec-admin lint` exits with status 0 exactly if at most one path is given, the index can be opened
and the texts of the checkout at that path (by default the current directory) pass. -/
theorem C94_exit_zero_iff (P : Project) (index : Option (Str → Lookup)) (lockFree : Bool) (paths : List Str) :
    P.runLint index lockFree paths = .ok () ↔ ∃ path lookup, (paths = [] ∧ path = ".".toList ∨ paths = [path]) ∧
      index = some lookup ∧ LintTexts P.advLib lockFree lookup (P.checkoutAt path) := by
  unfold Project.runLint
  rw [C69_exit_zero_iff _ (C94_distinct P) (C94_header P)]
  refine exists_congr fun path => exists_congr fun lookup => and_congr_right fun _ => and_congr_right fun _ => ?_
  constructor
  · rintro ⟨⟨db, ho, hne⟩, ht, hc, hn⟩
    refine ⟨(C91_database P _).mp ⟨db, ho⟩, ?_, ht, hc, hn⟩
    obtain ⟨a, ha⟩ := List.exists_mem_of_ne_nil _ hne
    obtain ⟨col, text, f, h1, h2, h3, -⟩ := (mem_db ho a).mp ha
    exact ⟨col, text, f, h1, h2, h3⟩
  · rintro ⟨hr, ⟨col, text, f, h1, h2, h3⟩, ht, hc, hn⟩
    obtain ⟨db, ho⟩ := (C91_database P _).mpr hr
    refine ⟨⟨db, ho, fun he => ?_⟩, ht, hc, hn⟩
    have := (mem_db ho _).mpr ⟨col, text, f, h1, h2, h3, rfl⟩
    rw [he] at this
    cases this

/-- **Property C94** (what the linter vouches for): after a successful `rustsec-admin lint`, `cargo audit` can load the
checkout: with it as the database it fails for findings only. -/
theorem C94_audit (P : Project) (hF : P.fp.Ok) (index : Option (Str → Lookup)) (lockFree : Bool) (path : Str)
    (h : P.runLint index lockFree [path] = .ok ()) (cmd : AuditCommand) (c : AuditConfig) (hc : Configured P cmd c)
    (hdb : c.database.fetch = false) (hp : c.database.path = some path) (text : Str) (ht : LockOf P cmd.file text)
    (l : Lock.Lockfile) (hl : Lock.Lockfile.fromText (semverCodec P.url) Toml.read text = .ok l)
    (hpr : Printable c l) :
    ((P.run cmd).2 = .code 0 ∨ (P.run cmd).2 = .code 1) ∧
      ((P.run cmd).2 = .code 1 ↔ Damning P cmd.file c (P.checkoutAt path) text) := by
  obtain ⟨path', lookup, hp' | hp', hi, hpass⟩ := (C94_exit_zero_iff P index lockFree [path]).mp h
  · cases hp'.1
  cases hp'
  obtain ⟨db, ho⟩ := (C91_database P _).mpr hpass.reads
  have hch : CheckoutOf P c (P.checkoutAt path) := by
    have := CheckoutOf.files (P := P) (c := c) hdb
    rw [hp] at this
    exact this
  obtain ⟨r, out, n, hrun, -, -, hn, hd⟩ := C91_verdict P hF cmd c hc text ht l hl _ hch db ho hpr
  rw [hrun]
  refine ⟨by rcases hn with rfl | rfl; exacts [.inl rfl, .inr rfl], ?_⟩
  rw [← hd]
  exact ⟨(fun e => by injection e), (fun e => by rw [e])⟩

end Verif.Props
