import Verif.Spec.Repository
import Verif.Props.AuditExamples

/-!
# C66: fetching the advisory database
-/

namespace Verif.Props

open Verif.Repo Verif.Audit Verif.Adv Verif.Spec

theorem startsWith_prefix (s : Str) (p : String) : startsWith s p = true ↔ p.toList <+: s := by
  unfold startsWith; exact List.isPrefixOf_iff_prefix

theorem lookup_append (a b : Files) (pl : Place) : (a ++ b).lookup pl = (a.lookup pl).or (b.lookup pl) := by
  induction a with
  | nil => simp
  | cons e a ih =>
    obtain ⟨q, x⟩ := e
    rw [List.cons_append, List.lookup_cons, List.lookup_cons]
    by_cases h : pl == q
    · simp [h]
    · simp [h, ih]

theorem lookup_none_iff (a : Files) (pl : Place) : a.lookup pl = none ↔ a.any (fun n => decide (n.1 = pl)) = false := by
  induction a with
  | nil => simp
  | cons e a ih =>
    obtain ⟨q, x⟩ := e
    rw [List.lookup_cons, List.any_cons]
    by_cases h : pl = q
    · simp [h]
    · have : (pl == q) = false := by simpa using h
      rw [this]
      simp only [Bool.or_eq_false_iff]
      rw [ih]
      have : decide (q = pl) = false := by simpa using fun e => h e.symm
      simp [this]

theorem lookup_filter_other (a b : Files) (pl : Place) (h : a.lookup pl = none) :
    (b.filter fun e => !a.any fun n => decide (n.1 = e.1)).lookup pl = b.lookup pl := by
  induction b with
  | nil => rfl
  | cons e b ih =>
    obtain ⟨q, x⟩ := e
    rw [List.filter_cons]
    by_cases hq : pl = q
    · subst hq
      rw [(lookup_none_iff a pl).mp h]
      simp
    · have hne : (pl == q) = false := by simpa using hq
      cases hc : a.any fun n => decide (n.1 = q)
      · simp only [hc, Bool.not_false, if_true]
        rw [List.lookup_cons, List.lookup_cons, hne]
        exact ih
      · simp only [hc, Bool.not_true, Bool.false_eq_true, if_false]
        rw [List.lookup_cons, hne]
        exact ih

/-- What is in the work tree after a checkout. -/
theorem checkout_lookup (c : Commit) (before : Files) (pl : Place) :
    (c.checkout before).lookup pl = (c.files.lookup pl).or (before.lookup pl) := by
  unfold Commit.checkout
  rw [lookup_append]
  cases h : c.files.lookup pl with
  | some x => rfl
  | none => simp only [Option.none_or]; exact lookup_filter_other c.files before pl h

/-- **C66, success.**  A fetch that succeeds was asked for an `https` URL and leaves `HEAD` at what some remote offers now:
the remote asked for, unless there already was a repository at the path with another `origin` (and none around it with
that one).  If freshness is required, the commit is less than 90 days old. -/
theorem C66_fetched (W : GitWorld) (url path : Str) (fresh wait : Bool) (r : Repository)
    (h : W.fetch url path fresh wait = .ok r) :
    "https://".toList <+: url ∧
    ∃ c o, r.head = some c ∧ r.origin = some o ∧ ComesFrom W o c ∧ c.summary ≠ [] ∧
      (fresh = true → W.now - c.time < 90 * 24 * 60 * 60) ∧
      (o = url ∨ ∃ r0, W.openAt path = some r0 ∧ r0.origin = some o ∧ o ≠ url) ∧
      ∃ before, Before W path before ∧ Overlaid c before r.files := by
  unfold GitWorld.fetch at h
  by_cases h1 : (!startsWith url "https://") = true
  · rw [if_pos h1] at h; cases h
  rw [if_neg h1] at h
  by_cases h2 : (!W.pathOk path) = true
  · rw [if_pos h2] at h; cases h
  rw [if_neg h2] at h
  by_cases h3 : (!W.lock path wait) = true
  · rw [if_pos h3] at h; cases h
  rw [if_neg h3] at h
  cases hu : W.update url path with
  | none => rw [hu] at h; cases h
  | some r1 =>
    rw [hu] at h
    simp only at h
    cases hh : r1.head with
    | none => rw [hh] at h; cases h
    | some c =>
      rw [hh] at h
      simp only at h
      by_cases h4 : c.summary.isEmpty = true
      · rw [if_pos h4] at h; cases h
      rw [if_neg h4] at h
      by_cases h5 : (!W.resetOk path) = true
      · rw [if_pos h5] at h; cases h
      rw [if_neg h5] at h
      by_cases h6 : (fresh && !c.isFresh W.now) = true
      · rw [if_pos h6] at h; cases h
      rw [if_neg h6] at h
      cases h
      refine ⟨(startsWith_prefix _ _).mp (by simpa using h1), ?_⟩
      have hf : fresh = true → W.now - c.time < 90 * 24 * 60 * 60 := by
        rintro rfl
        simp [Commit.isFresh] at h6
        omega
      unfold GitWorld.update at hu
      cases he : W.existing url path with
      | none =>
        rw [he] at hu
        simp only at hu
        by_cases hc : W.cloneOk path = true
        · rw [if_pos hc] at hu
          cases hr : W.remote url with
          | none => rw [hr] at hu; cases hu
          | some c' =>
            rw [hr] at hu
            cases hu
            cases hh
            refine ⟨c, url, rfl, rfl, hr, by simpa using h4, hf, Or.inl rfl, [], .cloned ?_, ?_⟩
            · unfold GitWorld.existing at he
              split at he
              · cases he
              · exact he
            · intro pl
              show (c.checkout c.files).lookup pl = _
              rw [checkout_lookup]
              cases c.files.lookup pl <;> rfl
        · rw [if_neg hc] at hu; cases hu
      | some r0 =>
        rw [he] at hu
        simp only at hu
        cases ho : r0.origin with
        | none => rw [ho] at hu; cases hu
        | some o =>
          rw [ho] at hu
          simp only at hu
          cases hr : W.remote o with
          | none => rw [hr] at hu; cases hu
          | some c' =>
            rw [hr] at hu
            cases hu
            cases hh
            refine ⟨c, o, rfl, rfl, hr, by simpa using h4, hf, ?_, r0.files, .found r0 ?_, checkout_lookup c r0.files⟩
            rotate_left
            · unfold GitWorld.existing at he
              cases hd : (W.discover path).filter (fun r => decide (r.origin = some url)) with
              | none => rw [hd] at he; exact Or.inl he
              | some r2 =>
                rw [hd] at he
                cases he
                rw [Option.filter_eq_some_iff] at hd
                exact Or.inr hd.1
            by_cases hou : o = url
            · exact Or.inl hou
            · refine Or.inr ⟨r0, ?_, ho, hou⟩
              unfold GitWorld.existing at he
              cases hd : (W.discover path).filter (fun r => decide (r.origin = some url)) with
              | none => rw [hd] at he; exact he
              | some r2 =>
                rw [hd] at he
                cases he
                rw [Option.filter_eq_some_iff, decide_eq_true_iff, ho] at hd
                exact absurd (Option.some.inj hd.2) hou

/-- **C66, what is needed.**  With an `https` URL, a usable path, the lock, a remote with a proper and (if required) fresh
commit, and either no repository at the path or one whose `origin` is that URL, a fetch succeeds, with that commit. -/
theorem C66_succeeds (W : GitWorld) (url path : Str) (fresh wait : Bool) (c : Commit)
    (h1 : "https://".toList <+: url) (h2 : W.pathOk path = true) (h3 : W.lock path wait = true)
    (hc : ComesFrom W url c) (h4 : c.summary ≠ []) (h5 : W.resetOk path = true)
    (h6 : fresh = true → W.now - c.time < 90 * 24 * 60 * 60) (h7 : W.openAt path = none → W.cloneOk path = true)
    (h8 : ∀ r, W.openAt path = some r → r.origin = some url) :
    ∃ r, W.fetch url path fresh wait = .ok r ∧ r.head = some c := by
  have hs : startsWith url "https://" = true := (startsWith_prefix _ _).mpr h1
  have hu : ∃ r, W.update url path = some r ∧ r.head = some c := by
    have hex : (∃ r, W.existing url path = some r ∧ r.origin = some url) ∨
        (W.existing url path = none ∧ W.openAt path = none) := by
      unfold GitWorld.existing
      cases hd : (W.discover path).filter (fun r => decide (r.origin = some url)) with
      | some r =>
        rw [Option.filter_eq_some_iff, decide_eq_true_iff] at hd
        exact Or.inl ⟨r, rfl, hd.2⟩
      | none =>
        cases ho : W.openAt path with
        | none => exact Or.inr ⟨rfl, rfl⟩
        | some r => exact Or.inl ⟨r, rfl, h8 r ho⟩
    unfold GitWorld.update
    rcases hex with ⟨r, e, ho⟩ | ⟨e, ho⟩
    · rw [e]; simp only; rw [ho]; simp only; rw [show W.remote url = some c from hc]; exact ⟨_, rfl, rfl⟩
    · rw [e]; simp only; rw [if_pos (h7 ho), show W.remote url = some c from hc]; exact ⟨_, rfl, rfl⟩
  obtain ⟨r, e, hh⟩ := hu
  refine ⟨{ r with files := c.checkout r.files }, ?_, hh⟩
  have hne : c.summary.isEmpty = false := by cases hx : c.summary with | nil => exact absurd hx h4 | cons => rfl
  have hfr : (fresh && !c.isFresh W.now) = false := by
    cases fresh with
    | false => rfl
    | true => simp only [Commit.isFresh, Bool.true_and, Bool.not_eq_false', decide_eq_true_eq]; have := h6 rfl; omega
  unfold GitWorld.fetch
  rw [hs, h2, h3, e]
  simp only [hh, hne, h5, hfr, Bool.not_true, Bool.false_eq_true, if_false]

/-- **C66, in an audit.**  If fetching is not disabled, the database an audit uses is what is offered now by the configured
URL (the official one by default), unless there is a repository at the path with another `origin`, laid over the files that
were at the path before; it is less than 90 days old unless stale databases are accepted.  If fetching is disabled, it is
what is at the path. -/
theorem C66_audit (W : GitWorld) (env : Env) (henv : env.fetchRepo = W.fetchRepo) (c : AuditConfig) (t : Db.Tree)
    (h : env.checkout c = some t) :
    (c.database.fetch = false → t = env.filesAt (c.database.path.getD env.defaultPath)) ∧
    (c.database.fetch = true →
      "https://".toList <+: c.database.url.getD "https://github.com/RustSec/advisory-db.git".toList ∧
      ∃ commit o before files, t = W.read files ∧ Overlaid commit before files ∧
        Before W (c.database.path.getD env.defaultPath) before ∧ ComesFrom W o commit ∧
        (c.database.stale = false → W.now - commit.time < 90 * 24 * 60 * 60) ∧
        (o = c.database.url.getD "https://github.com/RustSec/advisory-db.git".toList ∨
          ∃ r0, W.openAt (c.database.path.getD env.defaultPath) = some r0 ∧ r0.origin = some o)) := by
  unfold Env.checkout at h
  constructor
  · intro hf
    simp only [hf, Bool.false_eq_true, if_false, Option.some.injEq] at h
    exact h.symm
  · intro hf
    simp only [hf, if_true, henv] at h
    unfold GitWorld.fetchRepo at h
    change (match (match W.fetch (c.database.url.getD defaultUrl) (c.database.path.getD env.defaultPath) (!c.database.stale) false with
      | .lockTimeout => W.fetch (c.database.url.getD defaultUrl) (c.database.path.getD env.defaultPath) (!c.database.stale) true
      | r => r) with
      | .ok r => some (W.read r.files)
      | _ => none) = some t at h
    have key : ∃ wait r, W.fetch (c.database.url.getD defaultUrl) (c.database.path.getD env.defaultPath) (!c.database.stale) wait = .ok r ∧
        W.read r.files = t := by
      cases h1 : W.fetch (c.database.url.getD defaultUrl) (c.database.path.getD env.defaultPath) (!c.database.stale) false with
      | err => rw [h1] at h; cases h
      | ok r => rw [h1] at h; exact ⟨false, r, h1, Option.some.inj h⟩
      | lockTimeout =>
        rw [h1] at h
        simp only at h
        cases h2 : W.fetch (c.database.url.getD defaultUrl) (c.database.path.getD env.defaultPath) (!c.database.stale) true with
        | err => rw [h2] at h; cases h
        | lockTimeout => rw [h2] at h; cases h
        | ok r => rw [h2] at h; exact ⟨true, r, h2, Option.some.inj h⟩
    obtain ⟨wait, r, e, ht⟩ := key
    obtain ⟨g1, commit, o, g2, g3, g4, -, g5, g6, before, g7, g8⟩ := C66_fetched W _ _ _ _ r e
    refine ⟨g1, commit, o, before, r.files, ht.symm, g8, g7, g4, fun hs => g5 (by simp [hs]), ?_⟩
    · rcases g6 with g6 | ⟨r0, g7, g8, -⟩
      · exact Or.inl g6
      · exact Or.inr ⟨r0, g7, g8⟩

/-- **C66, current.**  If the commit has a file wherever there was one before (for instance because there was nothing
before), the database is loaded from the files of the commit and no others. -/
theorem C66_current (W : GitWorld) (hW : ReadsFiles W) (commit : Repo.Commit) (before files : Files)
    (ho : Overlaid commit before files) (hsub : ∀ e ∈ before, (commit.files.lookup e.1).isSome)
    (col : Collection) (dir : Str) (f : Db.File) (hname : ¬ ['.'] <+: f.name) :
    Located (W.read files) col dir f ↔ commit.files.lookup ⟨col, dir, f.name⟩ = some f.content := by
  rw [hW files col dir f hname, ho]
  cases hc : commit.files.lookup ⟨col, dir, f.name⟩ with
  | some x => rfl
  | none =>
    have : before.lookup ⟨col, dir, f.name⟩ = none := by
      cases hb : before.lookup ⟨col, dir, f.name⟩ with
      | none => rfl
      | some x =>
        obtain ⟨l1, l2, hl, -⟩ := List.lookup_eq_some_iff.mp hb
        have := hsub (⟨col, dir, f.name⟩, x) (by rw [hl]; simp)
        rw [hc] at this; cases this
    rw [this]; rfl

/-- **C66, history.**  After fetching commits one after another into the same directory, each file is as in the latest of
the commits that had one at that place; files are never removed. -/
theorem C66_history (commits : List Repo.Commit) (pl : Place) :
    (commits.foldl (fun files c => c.checkout files) []).lookup pl =
      commits.reverse.findSome? fun c => c.files.lookup pl := by
  suffices h : ∀ start : Files, (commits.foldl (fun files c => c.checkout files) start).lookup pl =
      (commits.reverse.findSome? fun c => c.files.lookup pl).or (start.lookup pl) by
    rw [h []]; cases commits.reverse.findSome? fun c => c.files.lookup pl <;> rfl
  induction commits with
  | nil => intro start; rfl
  | cons c cs ih =>
    intro start
    rw [List.foldl_cons, ih, checkout_lookup, List.reverse_cons, List.findSome?_append]
    simp only [List.findSome?_cons, List.findSome?_nil]
    cases List.findSome? (fun c => c.files.lookup pl) cs.reverse with
    | some x => rfl
    | none => cases c.files.lookup pl <;> rfl

/-- **C66, interrupted.**  A checkout that is interrupted may leave files of the commit missing, old or torn, but touches
no others; fetching the same commit again then leaves the same files as if it had not been interrupted. -/
theorem C66_interrupted (c : Repo.Commit) (before torn : Files)
    (h : ∀ pl, c.files.lookup pl = none → torn.lookup pl = before.lookup pl) (pl : Place) :
    (c.checkout torn).lookup pl = (c.checkout before).lookup pl := by
  rw [checkout_lookup, checkout_lookup]
  cases hc : c.files.lookup pl with
  | some x => rfl
  | none => rw [h pl hc]

/-! ## Examples and violations -/

/-- `read_dir` of files each of which is listed once. -/
def readOnce (fs : Files) : Db.Tree where
  crates := some ((fs.filter fun e => e.1.collection = .crates).map fun e => .dir e.1.dir [⟨e.1.file, e.2⟩])
  rust := some ((fs.filter fun e => e.1.collection = .rust).map fun e => .dir e.1.dir [⟨e.1.file, e.2⟩])

/-- The first file at each place. -/
def firsts : Files → Files
  | [] => []
  | e :: fs => e :: (firsts fs).filter fun e' => decide (e'.1 ≠ e.1)

/-- `read_dir` in the order of the list. -/
def readFiles (fs : Files) : Db.Tree := readOnce (firsts fs)

theorem firsts_nodup (fs : Files) : ((firsts fs).map Prod.fst).Nodup := by
  induction fs with
  | nil => exact List.nodup_nil
  | cons e fs ih =>
    rw [firsts, List.map_cons, List.nodup_cons]
    refine ⟨?_, (List.Sublist.map _ List.filter_sublist).nodup ih⟩
    intro h
    obtain ⟨x, hx, he⟩ := List.mem_map.mp h
    exact of_decide_eq_true (List.mem_filter.mp hx).2 he

theorem firsts_lookup (fs : Files) (pl : Place) : (firsts fs).lookup pl = fs.lookup pl := by
  induction fs with
  | nil => rfl
  | cons e fs ih =>
    obtain ⟨q, x⟩ := e
    rw [firsts, List.lookup_cons, List.lookup_cons]
    by_cases h : pl = q
    · simp [h]
    · have hb : (pl == q) = false := by simpa using h
      rw [hb]
      simp only
      rw [← ih]
      have := lookup_filter_other [(q, x)] (firsts fs) pl (by rw [List.lookup_cons, hb]; rfl)
      rw [← this]
      congr 1
      apply List.filter_congr
      intro e' _
      simp only [List.any_cons, List.any_nil, Bool.or_false, decide_not]
      congr 1
      exact decide_eq_decide.mpr eq_comm

def exFiles : Files :=
  [(⟨.crates, "foo".toList, "RUSTSEC-2021-0001.md".toList⟩, .ok exAdvisory),
   (⟨.crates, "foo".toList, "RUSTSEC-2022-0002.md".toList⟩, .ok exInformational)]

def noticeFiles : Files := [(⟨.crates, "foo".toList, "RUSTSEC-2023-0003.md".toList⟩, .ok exNotice)]

/-- A world with two remotes; the path holds a clone of the given origin with the given files, or nothing. -/
def gitWorld (origin : Option (Str × Files)) : GitWorld where
  pathOk := fun _ => true
  lock := fun _ wait => wait
  discover := fun _ => none
  openAt := fun _ => origin.map fun o => ⟨some o.1, none, o.2⟩
  remote := fun u =>
    if u = "https://a".toList then some ⟨exFiles, 1000000, "x".toList⟩
    else if u = "http://b".toList then some ⟨noticeFiles, 1000000, "x".toList⟩ else none
  cloneOk := fun _ => true
  resetOk := fun _ => true
  read := readFiles
  now := 1000000 + 90 * 86400 - 1

theorem readOnce_law (fs : Files) (hn : (fs.map Prod.fst).Nodup) (col : Collection) (dir : Str) (f : Db.File)
    (hname : ¬ ['.'] <+: f.name) :
    Located (readOnce fs) col dir f ↔ fs.lookup ⟨col, dir, f.name⟩ = some f.content := by
  have hmem : fs.lookup ⟨col, dir, f.name⟩ = some f.content ↔ (⟨col, dir, f.name⟩, f.content) ∈ fs := by
    constructor
    · intro h
      obtain ⟨l1, l2, hl, -⟩ := List.lookup_eq_some_iff.mp h
      rw [hl]; simp
    · intro h
      induction fs with
      | nil => cases h
      | cons e fs ih =>
        obtain ⟨q, x⟩ := e
        rw [List.map_cons, List.nodup_cons] at hn
        rw [List.lookup_cons]
        rcases List.mem_cons.mp h with h' | h'
        · cases h'; simp
        · have : (({ collection := col, dir := dir, file := f.name } : Place) == q) = false := by
            rw [beq_eq_false_iff_ne]
            rintro rfl
            exact hn.1 (List.mem_map.mpr ⟨_, h', rfl⟩)
          rw [this]
          exact ih hn.2 h'
  rw [hmem]
  unfold Located readOnce
  constructor
  · rintro ⟨listing, files, h1, h2, h3, -⟩
    cases col with
    | crates =>
      cases h1
      obtain ⟨e, he, hd⟩ := List.mem_map.mp h2
      cases hd
      obtain ⟨he1, he2⟩ := List.mem_filter.mp he
      have hcol := of_decide_eq_true he2
      obtain ⟨⟨c, d, n⟩, x⟩ := e
      cases List.mem_singleton.mp h3
      cases hcol
      exact he1
    | rust =>
      cases h1
      obtain ⟨e, he, hd⟩ := List.mem_map.mp h2
      cases hd
      obtain ⟨he1, he2⟩ := List.mem_filter.mp he
      have hcol := of_decide_eq_true he2
      obtain ⟨⟨c, d, n⟩, x⟩ := e
      cases List.mem_singleton.mp h3
      cases hcol
      exact he1
  · intro h
    cases col with
    | crates =>
      exact ⟨_, [f], rfl, List.mem_map.mpr ⟨_, List.mem_filter.mpr ⟨h, rfl⟩, rfl⟩, List.mem_singleton.mpr rfl, hname⟩
    | rust =>
      exact ⟨_, [f], rfl, List.mem_map.mpr ⟨_, List.mem_filter.mpr ⟨h, rfl⟩, rfl⟩, List.mem_singleton.mpr rfl, hname⟩

/-- The law on reading is met by a reader that lists the files. -/
theorem gitWorld_reads (o : Option (Str × Files)) : ReadsFiles (gitWorld o) := by
  intro fs col dir f hname
  show Located (readOnce (firsts fs)) col dir f ↔ _
  rw [readOnce_law (firsts fs) (firsts_nodup fs) col dir f hname, firsts_lookup]

/-- Fetching into an empty directory, and into a clone of that remote. -/
example : (gitWorld none).fetch "https://a".toList [] true true =
      .ok ⟨some "https://a".toList, some ⟨exFiles, 1000000, "x".toList⟩, exFiles⟩ ∧
    (gitWorld none).fetchRepo "https://a".toList [] true = some (readFiles exFiles) ∧
    (gitWorld (some ("https://a".toList, exFiles.take 1))).fetchRepo "https://a".toList [] true = some (readFiles exFiles) ∧
    { gitWorld none with now := 1000000 + 90 * 86400 }.fetchRepo "https://a".toList [] true = none ∧
    { gitWorld none with now := 1000000 + 90 * 86400 }.fetchRepo "https://a".toList [] false = some (readFiles exFiles) ∧
    (gitWorld none).fetchRepo "http://b".toList [] false = none := by
  refine ⟨?_, ?_, ?_, ?_, ?_, ?_⟩ <;> decide +kernel

/-- **C66 (violation).**  If the path already holds a clone of another remote, the URL asked for is ignored: the other
remote is fetched and its advisories are used, even over `http`, which is refused when asked for. -/
theorem C66_url_ignored :
    ∃ (W : GitWorld) (url path : Str) (r : Repository) (c c' : Commit), W.fetch url path true true = .ok r ∧
      r.head = some c ∧ ComesFrom W url c' ∧ c ≠ c' ∧ r.origin = some "http://b".toList ∧
      W.fetch "http://b".toList path true true = .err :=
  ⟨gitWorld (some ("http://b".toList, [])), "https://a".toList, [],
    ⟨some "http://b".toList, some ⟨noticeFiles, 1000000, "x".toList⟩, noticeFiles⟩,
    ⟨noticeFiles, 1000000, "x".toList⟩, ⟨exFiles, 1000000, "x".toList⟩, by decide +kernel, rfl, by
      unfold ComesFrom; decide +kernel, by decide +kernel, rfl, by decide +kernel⟩

/-- **C66 (violation): advisories that were removed are still used.**  The remote has removed the notice; the clone still has
its file.  After a fetch that succeeds, `HEAD` is at the remote's commit, but the notice is in the database. -/
theorem C66_removed_still_used :
    ∃ (W : GitWorld) (url path : Str) (r : Repository) (c : Commit) (db : Db.Database),
      W.fetch url path true true = .ok r ∧ r.origin = some url ∧ r.head = some c ∧ ComesFrom W url c ∧
      (∀ e ∈ c.files, e.2 ≠ .ok exNotice) ∧ Db.Database.open (W.read r.files) = .ok db ∧
      stored .crates exNotice ∈ db.iter := by
  have hopen : ∃ db, Db.Database.open (readFiles (exFiles ++ noticeFiles)) = .ok db ∧ stored .crates exNotice ∈ db.iter := by
    have h : (match Db.Database.open (readFiles (exFiles ++ noticeFiles)) with
      | .ok db => decide (stored .crates exNotice ∈ db.iter) | _ => false) = true := by decide +kernel
    cases ho : Db.Database.open (readFiles (exFiles ++ noticeFiles)) with
    | ok db => rw [ho] at h; exact ⟨db, rfl, of_decide_eq_true h⟩
    | err => rw [ho] at h; cases h
    | panic => rw [ho] at h; cases h
  obtain ⟨db, h1, h2⟩ := hopen
  exact ⟨gitWorld (some ("https://a".toList, noticeFiles)), "https://a".toList, [],
    ⟨some "https://a".toList, some ⟨exFiles, 1000000, "x".toList⟩, exFiles ++ noticeFiles⟩,
    ⟨exFiles, 1000000, "x".toList⟩, db, by decide +kernel, rfl, rfl, by unfold ComesFrom; decide +kernel,
    by decide +kernel, h1, h2⟩

/-- The advisory of `exFiles`, under the name the crate had before. -/
def movedFiles : Files :=
  [(⟨.crates, "fooo".toList, "RUSTSEC-2021-0001.md".toList⟩,
    .ok { exAdvisory with metadata := { exAdvisory.metadata with package := "fooo".toList } })]

/-- **C66 (violation): an advisory that was moved breaks every later audit.**  The remote has moved an advisory to another
package.  The commit is a database that opens, but the work tree after a successful fetch is not, as the ID occurs twice;
and fetching again does not help. -/
theorem C66_moved_breaks :
    ∃ (W : GitWorld) (url path : Str) (r : Repository) (c : Commit),
      W.fetch url path true true = .ok r ∧ r.head = some c ∧ ComesFrom W url c ∧
      (∃ db, Db.Database.open (W.read c.files) = .ok db) ∧ Db.Database.open (W.read r.files) = .err ∧
      c.checkout r.files = r.files := by
  have hopen : ∃ db, Db.Database.open (readFiles exFiles) = .ok db := by
    have h : (match Db.Database.open (readFiles exFiles) with | .ok _ => true | _ => false) = true := by decide +kernel
    cases ho : Db.Database.open (readFiles exFiles) with
    | ok db => exact ⟨db, rfl⟩
    | err => rw [ho] at h; cases h
    | panic => rw [ho] at h; cases h
  exact ⟨gitWorld (some ("https://a".toList, movedFiles)), "https://a".toList, [],
    ⟨some "https://a".toList, some ⟨exFiles, 1000000, "x".toList⟩, exFiles ++ movedFiles⟩,
    ⟨exFiles, 1000000, "x".toList⟩, by decide +kernel, rfl, by unfold ComesFrom; decide +kernel,
    hopen, by decide +kernel, by decide +kernel⟩

end Verif.Props
