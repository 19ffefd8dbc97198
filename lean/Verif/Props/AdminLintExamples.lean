import Verif.Props.AdminLint
import Verif.Props.OsvExportExamples
import Verif.Props.LinterExamples

/-!
# C69: examples and limits
-/

namespace Verif.Props

open Verif.Adv Verif.Db Verif.Assign Verif.Lint Verif.AdminLint Verif.Spec

/-- The law on headers holds of a parser that knows front matters with and without the header. -/
example : HeaderLaw toyToml := by
  intro fm t t' m hn ht ht' hm k s hk
  have hk' := mem_of_lookup hk
  have h1 : toyToml ("[advisory]\n".toList ++ bareFront) = some [("advisory".toList, .table
        (goodMeta ++ [("affected".toList, .table [("arch".toList, .arr [.str "x86".toList])])])),
      ("versions".toList, someVersions)] := rfl
  have h2 : toyToml ("[advisory]\n".toList ++ bareFront2) = toyToml goodFront := rfl
  have h3 : toyToml goodFront = some [("advisory".toList, .table goodMeta), ("versions".toList, someVersions),
          ("affected".toList, .table [("functions".toList,
            .table [("base_64::decode".toList, .arr [.str ">= 1.2.3".toList])]),
            ("arch".toList, .arr [.str "x86".toList]), ("os".toList, .arr [.str "no-such-os".toList])])] := rfl
  unfold toyToml at ht
  split at ht
  · rename_i e; rw [e] at hn; exact absurd (by decide +kernel) hn
  split at ht
  · rename_i e; rw [e] at hn; exact absurd (by decide +kernel) hn
  split at ht
  · rename_i e
    subst e
    rw [h1] at ht'
    cases ht'
    cases hm
    cases ht
    rcases List.mem_append.mp hk' with h | h
    · exact ⟨_, List.mem_append_left _ h⟩
    · simp only [List.mem_singleton, Prod.mk.injEq, reduceCtorEq, and_false] at h
  split at ht
  · rename_i e; exact absurd ⟨_, e.symm⟩ hn
  split at ht
  · rename_i e
    subst e
    rw [h2, h3] at ht'
    cases ht'
    cases hm
    cases ht
    exact ⟨_, List.mem_append_left _ hk'⟩
  split at ht
  · rename_i e; exact absurd ⟨_, e.symm⟩ hn
  · cases ht

theorem exportLib_header : HeaderLaw exportLib.toml := by
  intro fm t t' m hn ht
  exfalso
  simp only [exportLib] at ht
  repeat' split at ht
  all_goals first
    | cases ht; done
    | (rename_i e; rw [e] at hn; exact hn (by decide +kernel))

theorem exportLib_distinct : DistinctKeys exportLib.toml := by
  intro fm t ht
  simp only [exportLib] at ht
  repeat' split at ht
  all_goals first
    | (cases ht; exact (by decide +kernel : ["advisory".toList, "versions".toList].Nodup))
    | cases ht

/-- crates.io has the crate `foo`, and `Bar`, whose name is found for `bar` too. -/
def lintIndex (name : Str) : Lookup :=
  if name = "foo".toList then .found name
  else if name = "bar".toList then .found "Bar".toList
  else .missing

/-- The environment of the examples. -/
def lintEnv (lockFree : Bool) : LintEnv := ⟨exportLib, noSev, some lintIndex, lockFree⟩

theorem ok_of_isOk {o : Outcome Unit} (h : o.isOk = true) : o = .ok () := by
  cases o with
  | ok u => rfl
  | err => cases h
  | panic => cases h

/-- The hypotheses of the C69 theorems are met by a checkout with an advisory and a draft: the command exits with
status 0, and then the draft gets an ID. -/
example : DistinctKeys (lintEnv true).adv.toml ∧ HeaderLaw (lintEnv true).adv.toml ∧
    lintCommand (lintEnv true) (fun _ => checkoutOf exportDisk) ["db".toList] = .ok () ∧
    created (assignIds exportLib noSev exportDisk).effects = [⟨.crates, "foo".toList, "RUSTSEC-2021-0002.md".toList⟩] :=
  ⟨exportLib_distinct, exportLib_header, ok_of_isOk (by decide +kernel), by decide +kernel⟩

/-- A checkout with one file that is wrong: a `.txt` file, a draft name on an assigned ID, a year that is not that of
the date, a crate whose name is written otherwise, and one with nothing in it. -/
example : [[exportFileOf "foo" "RUSTSEC-2021-0001.txt" "one"], [exportFileOf "foo" "RUSTSEC-0000-0000.x.md" "one"],
      [exportFileOf "bar" "RUSTSEC-0000-0000.md" "draft2", exportFileOf "foo" "RUSTSEC-2021-0001.md" "one"], []].all
    (fun d => decide (lintCommand (lintEnv true) (fun _ => checkoutOf d) [] = .err)) = true := by decide +kernel

/-- **C69, violation.**  If cargo's lock is taken, no name is checked, and the command still succeeds: it does not wait
for the lock.  Here the crate `bar` is `Bar` on crates.io. -/
theorem C69_lock_taken_unchecked :
    ∃ (E : LintEnv) (c : Checkout), DistinctKeys E.adv.toml ∧ HeaderLaw E.adv.toml ∧
      lintCommand { E with lockFree := false } (fun _ => c) [] = .ok () ∧
      lintCommand { E with lockFree := true } (fun _ => c) [] = .err :=
  ⟨lintEnv true, checkoutOf [exportFileOf "foo" "RUSTSEC-2021-0001.md" "one",
      exportFileOf "bar" "RUSTSEC-0000-0000.md" "draft2"], exportLib_distinct, exportLib_header,
    ok_of_isOk (by decide +kernel), by decide +kernel⟩

/-- While the lock is taken, the answers of the index do not matter. -/
theorem C69_lock_taken (E : LintEnv) (at_ : Str → Checkout) (paths : List Str) (h : E.lockFree = false)
    (lookup lookup' : Str → Lookup) :
    lintCommand { E with index := some lookup } at_ paths = lintCommand { E with index := some lookup' } at_ paths := by
  have h1 : ∀ l c listing, lintCollection { E with index := some lookup } l c listing =
      lintCollection { E with index := some lookup' } lookup' c listing := by
    intro l c listing
    unfold lintCollection cratesIoLints
    simp only [h]
    rfl
  unfold lintCommand lint
  simp only [h1]

/-- **C69, violation.**  The database opens, but the linter fails: without the directory `rust`, with a hidden file
(which the database skips) in a package directory, or with a stray file beside the package directories. -/
theorem C69_stricter_than_open :
    ∃ (E : LintEnv) (entry : Entry), DistinctKeys E.adv.toml ∧ HeaderLaw E.adv.toml ∧
      lintCommand E (fun _ => ⟨some [entry], some []⟩) [] = .ok () ∧
      ∀ c ∈ [(⟨some [entry], none⟩ : Checkout), ⟨some [entry, .other "README.md".toList], some []⟩,
          ⟨some [entry], some [.dir "std".toList [.file ".gitkeep".toList (some [])]]⟩],
        (Database.open (c.tree E.adv E.sev)).isOk = true ∧ lintCommand E (fun _ => c) [] = .err := by
  refine ⟨lintEnv true, .dir "foo".toList [.file "RUSTSEC-2021-0001.md".toList (some (exportDoc "one"))],
    exportLib_distinct, exportLib_header, ok_of_isOk (by decide +kernel), ?_⟩
  intro c hc
  simp only [List.mem_cons, List.not_mem_nil, or_false] at hc
  rcases hc with rfl | rfl | rfl <;> exact ⟨by decide +kernel, by decide +kernel⟩

end Verif.Props
