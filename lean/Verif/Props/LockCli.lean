import Verif.Spec.LockCli
import Verif.Props.Lockfile
import Verif.Props.LockfileV1
import Verif.Props.Tree
import Verif.Props.AdvisoryDecode
import Verif.Props.Assigner
import Verif.Props.SyncRun

/-!
# C71: the `cargo lock` command
-/

namespace Verif.Props

open Verif.Lock Verif.LockCli Verif.Spec

/-! ### `list` -/

theorem showItem_text (C : Codec) (sources : Bool) (d : Dependency) : ItemText C sources d (showItem C sources d) := by
  refine ⟨fun h => ?_, fun h hs => ?_, fun h s hs => ?_⟩
  · subst h
    simp [showItem]
  · subst h
    simp [showItem, Dependency.show, hs, parenPart]
  · subst h
    simp [showItem, Dependency.show, hs, parenPart]

/-- **C71.**  `cargo lock list` fails exactly if the lockfile cannot be loaded.  It lists the packages of the lockfile (those
of the given name) in order, each with name and version (and source, if wanted), and below it its dependencies, if
wanted. -/
theorem C71_list (E : CliEnv) (args : ListArgs) :
    ((list E args).result = .ok () ↔ ∃ l, loadLockfile E args.file = .ok l) ∧ (list E args).written = none ∧
    ∀ l, loadLockfile E args.file = .ok l → ∃ blocks : List (List Str),
      List.Forall₂ (ListedAs E.codec args)
        (l.packages.filter fun p => decide (∀ n, args.package = some n → p.name = n)) blocks ∧
      (list E args).stdout = blocks.flatten.map Out.line := by
  have hlist : ∀ l, loadLockfile E args.file = .ok l → list E args =
      { stdout := (l.packages.flatMap (packageLines E.codec args)).map Out.line, result := .ok () } := by
    intro l hl
    unfold list
    rw [hl]
  refine ⟨?_, ?_, fun l hl => ?_⟩
  · constructor
    · intro h
      unfold list at h
      cases hl : loadLockfile E args.file with
      | ok l => exact ⟨l, rfl⟩
      | err => rw [hl] at h; cases h
      | panic => rw [hl] at h; cases h
    · rintro ⟨l, hl⟩
      rw [hlist l hl]
  · unfold list
    cases hl : loadLockfile E args.file <;> rfl
  · rw [hlist l hl]
    have hin : ∀ p, (∀ n, args.package = some n → p.name = n) → ListedAs E.codec args p (packageLines E.codec args p) := by
      intro p hp
      have hc : skipped args p = false := by
        unfold skipped
        cases ha : args.package with
        | none => rfl
        | some n => simp [hp n ha]
      unfold packageLines
      rw [hc]
      refine ⟨_, _, rfl, showItem_text _ _ _, fun h => ?_, fun h => ?_⟩
      · rw [h]; rfl
      · rw [h]
        simp only [if_true]
        generalize p.dependencies = ds
        induction ds with
        | nil => exact .nil
        | cons d ds ih => exact .cons ⟨_, rfl, showItem_text _ _ _⟩ ih
    have hout : ∀ p, ¬ (∀ n, args.package = some n → p.name = n) → packageLines E.codec args p = [] := by
      intro p hp
      have hc : skipped args p = true := by
        unfold skipped
        cases ha : args.package with
        | none => exact absurd (fun n h => by rw [ha] at h; cases h) hp
        | some n =>
          simp only [decide_eq_true_eq]
          intro e
          exact hp fun m hm => by rw [ha] at hm; cases hm; exact e
      unfold packageLines
      rw [hc]
      rfl
    refine ⟨(l.packages.filter fun p => decide (∀ n, args.package = some n → p.name = n)).map
      (packageLines E.codec args), ?_, ?_⟩
    · rw [List.forall₂_map_right_iff, List.forall₂_same]
      intro p hp
      exact hin p (of_decide_eq_true (List.mem_filter.mp hp).2)
    · show (l.packages.flatMap (packageLines E.codec args)).map Out.line = _
      congr 1
      generalize l.packages = ps
      induction ps with
      | nil => rfl
      | cons p ps ih =>
        rw [List.flatMap_cons, ih]
        by_cases hp : ∀ n, args.package = some n → p.name = n
        · rw [List.filter_cons_of_pos (by simpa using hp), List.map_cons, List.flatten_cons]
        · rw [List.filter_cons_of_neg (by simpa using hp), hout p hp]
          rfl

/-- **C71.**  With sources, the text of a package or dependency reads back as its name, version and source: different ones are
listed differently. -/
theorem C71_list_identifies (C : Codec) (d : Dependency) (h : DependencyOk C false d) (text : Str)
    (ht : ItemText C true d text) :
    EncDependency.fromStr C text = .ok ⟨d.name, some d.version, d.source⟩ := by
  have e : text = EncDependency.show C false ⟨d.name, some d.version, d.source⟩ := by
    cases hs : d.source with
    | none => rw [ht.2.1 rfl hs]; simp [EncDependency.show, parenPart]
    | some s => rw [ht.2.2 rfl s hs]; simp [EncDependency.show, parenPart]
  rw [e]
  exact EncDependency.fromStr_show h.1 (fun v hv => by cases hv; exact h.2.1) h.2.2 (fun h => by cases h)

/-! ### `translate` -/

theorem metaRemove_all (C : Codec) (v : ResolveVersion) (hv : v ≠ .v1) (ps : List Package) (m : LockMetadata) :
    ps.foldl (metaStep C v) m =
      m.filter fun e => !(ps.any fun p => decide (e.1 = checksumKey C (Dependency.ofPackage p))) := by
  induction ps generalizing m with
  | nil => simp
  | cons p ps ih =>
    rw [List.foldl_cons, ih]
    have : metaStep C v m p = metaRemove (checksumKey C (Dependency.ofPackage p)) m := by
      unfold metaStep
      simp only [if_neg hv]
    rw [this]
    unfold metaRemove
    rw [List.filter_filter]
    refine List.filter_congr fun e _ => ?_
    rw [List.any_cons, Bool.not_or, Bool.and_comm]

theorem print_translated (C : Codec) (l : Lockfile) (v : ResolveVersion) (hv : v ≠ .v1) :
    Lockfile.print C { l with version := v } = Lockfile.print C (translated C l v) := by
  have h : (({ l with version := v } : Lockfile).encode C).emit C v.encoded =
      ((translated C l v).encode C).emit C v.encoded := by
    unfold EncLockfile.emit Lockfile.encode translated
    dsimp only
    rw [metaRemove_all C v hv, metaRemove_all C v hv]
    have e : (l.packages.map (encodePackage { l with version := v })) =
        l.packages.map (encodePackage (translated C l v)) := rfl
    congr 1
    rw [List.filter_filter]
    refine List.filter_congr fun e _ => ?_
    rw [Bool.and_self]
  exact h

/-- **C71.**  `cargo lock translate` to a format from V2 on: the document, in the file or on the standard output, reads back
as the lockfile that was loaded, in the format wanted (V3 by default): the same packages with their sources,
checksums and dependencies.  (The conditions are those of C28.) -/
theorem C71_translate (E : CliEnv) (args : TranslateArgs) (l : Lockfile) (hl : loadLockfile E args.file = .ok l)
    (v : ResolveVersion) (hv : v = args.version.getD .v3) (hw : WellFormed E.codec (translated E.codec l v)) :
    ∃ doc, Lockfile.parse E.codec doc = .ok (translated E.codec l v) ∧
      ((args.output = none ∨ args.output = some "-".toList) →
        translate E args = { stdout := [.doc doc], result := .ok () }) ∧
      (∀ out, args.output = some out → out ≠ "-".toList →
        (E.writable out = true → translate E args = { written := some (out, doc), result := .ok () }) ∧
        (E.writable out = false → translate E args = { result := .err })) := by
  have hne : v ≠ .v1 := hw.version
  refine ⟨Lockfile.print E.codec { l with version := v }, ?_, fun ho => ?_, fun out ho hout => ⟨fun hx => ?_, fun hx => ?_⟩⟩
  · rw [print_translated _ _ _ hne]
    exact C28_round_trip _ _ hw
  · have : args.output.getD "-".toList = "-".toList := by
      rcases ho with h | h <;> rw [h] <;> rfl
    unfold translate
    rw [hl, this]
    simp only [if_true, hv]
    rfl
  · unfold translate
    rw [hl, ho]
    simp only [Option.getD_some, if_neg hout, hx, if_true, hv]
    rfl
  · unfold translate
    rw [hl, ho]
    simp only [Option.getD_some, if_neg hout, hx]
    rfl

/-- **C71.**  Nothing is written if the lockfile cannot be loaded. -/
theorem C71_translate_unreadable (E : CliEnv) (args : TranslateArgs) (h : ∀ l, loadLockfile E args.file ≠ .ok l) :
    (translate E args).result ≠ .ok () ∧ (translate E args).written = none ∧ (translate E args).stdout = [] := by
  unfold translate
  cases hl : loadLockfile E args.file with
  | ok l => exact absurd hl (h l)
  | err => exact ⟨(fun h => by cases h), rfl, rfl⟩
  | panic => exact ⟨(fun h => by cases h), rfl, rfl⟩

/-! ### `tree` -/

theorem splitOnce_some {c : Char} : ∀ {s a b : Str}, splitOnce c s = some (a, b) → c ∉ a ∧ s = a ++ c :: b
  | [], _, _, h => by cases h
  | x :: s, a, b, h => by
    unfold splitOnce at h
    split at h
    · rename_i hx
      cases h
      exact ⟨List.not_mem_nil, by rw [hx]; rfl⟩
    · rename_i hx
      cases hs : splitOnce c s with
      | none => rw [hs] at h; cases h
      | some r =>
        obtain ⟨a', b'⟩ := r
        rw [hs] at h
        cases h
        obtain ⟨h1, h2⟩ := splitOnce_some hs
        refine ⟨?_, by rw [h2]; rfl⟩
        rw [List.mem_cons, not_or]
        exact ⟨fun e => hx e.symm, h1⟩

theorem splitOnce_none {c : Char} : ∀ {s : Str}, splitOnce c s = none → c ∉ s
  | [], _ => List.not_mem_nil
  | x :: s, h => by
    unfold splitOnce at h
    split at h
    · cases h
    · rename_i hx
      rw [List.mem_cons, not_or]
      refine ⟨fun e => hx e.symm, splitOnce_none ?_⟩
      cases hs : splitOnce c s with
      | none => rfl
      | some r => rw [hs] at h; cases h

theorem splitOnce_append {c : Char} : ∀ {a : Str} (b : Str), c ∉ a → splitOnce c (a ++ c :: b) = some (a, b)
  | [], b, _ => by simp [splitOnce]
  | x :: a, b, h => by
    rw [List.mem_cons, not_or] at h
    rw [List.cons_append, splitOnce, if_neg (fun e => h.1 e.symm), splitOnce_append b h.2]
    rfl

theorem matchesVer_iff (C : Codec) (p : Package) (ver : Str) : matchesVer C p ver = true ↔ IsVersionOf C p ver := by
  unfold matchesVer IsVersionOf
  cases hv : C.parseVersion ver with
  | some v =>
    simp only [decide_eq_true_eq, Option.some.injEq, reduceCtorEq, false_and, or_false]
    exact eq_comm
  | none =>
    simp only [reduceCtorEq, false_or, true_and, Bool.or_eq_true]
    refine or_congr ?_ ?_
    · cases p.checksum <;> simp
    · cases p.source <;> simp

theorem packageMatches_iff (C : Codec) (p : Package) (spec : Str) :
    packageMatches C p spec = true ↔ MeantBy C p spec := by
  unfold packageMatches MeantBy
  cases hs : splitOnce '@' spec with
  | some r =>
    obtain ⟨name, ver⟩ := r
    obtain ⟨h1, h2⟩ := splitOnce_some hs
    simp only [Bool.and_eq_true, decide_eq_true_eq, matchesVer_iff]
    constructor
    · rintro ⟨hn, hv⟩
      exact .inl ⟨name, ver, h1, h2, hn, hv⟩
    · rintro (⟨n, w, hn, he, hp, hv⟩ | ⟨hno, -⟩)
      · rw [he, splitOnce_append w hn] at hs
        cases hs
        exact ⟨hp, hv⟩
      · exact absurd (by rw [h2]; simp) hno
  | none =>
    have hno := splitOnce_none hs
    simp only [Bool.or_eq_true, decide_eq_true_eq, matchesVer_iff]
    constructor
    · exact fun h => .inr ⟨hno, h⟩
    · rintro (⟨n, w, hn, he, -⟩ | ⟨-, h⟩)
      · exact absurd (by rw [he]; simp) hno
      · exact h

theorem namesPkg_self (p : Package) : NamesPkg (Dependency.ofPackage p) p := by
  refine ⟨rfl, rfl, ?_⟩
  cases hs : p.source with
  | none => exact .inl ⟨hs, rfl⟩
  | some s =>
    refine .inr ⟨s, s, hs, rfl, rfl, rfl, ?_⟩
    by_cases hg : ∃ r, s.kind = .git r
    · exact .inl ⟨hg, hg, .inr (.inr rfl)⟩
    · exact .inr ⟨fun h => hg h.1, rfl⟩

theorem nodeOf_self {ps : List Package} (hd : NoTwins ps) {i : Nat} {p : Package} (hi : ps[i]? = some p) :
    NodeOf ps (Dependency.ofPackage p) i :=
  ⟨⟨p, hi, namesPkg_self p⟩, fun j q hij hj hn => absurd (hd i j p q hi hj hn) (Nat.ne_of_lt hij)⟩

/-- The node of a given dependency is the first package that is meant. -/
theorem nodeFor_iff (C : Codec) (l : Lockfile) (hp : Pinned l.packages) (hd : NoTwins l.packages) (t : Tree)
    (ht : Tree.new l = .ok t) (spec : Str) :
    nodeFor C l t spec ≠ .panic ∧
    (∀ i, nodeFor C l t spec = .ok i ↔ FirstMeant C l.packages spec i) ∧
    (nodeFor C l t spec = .err ↔ ∀ p ∈ l.packages, ¬ MeantBy C p spec) := by
  have hg := (C31_graph l hp t ht).2.1
  unfold nodeFor
  cases hf : l.packages.find? fun p => packageMatches C p spec with
  | none =>
    have hno : ∀ p ∈ l.packages, ¬ MeantBy C p spec := by
      intro p hpm hm
      have := List.find?_eq_none.mp hf p hpm
      exact this ((packageMatches_iff C p spec).mpr hm)
    refine ⟨(fun h => by cases h), fun i => ⟨(fun h => by cases h), ?_⟩, fun _ => hno, fun _ => rfl⟩
    rintro ⟨p, hi, hm, -⟩
    exact absurd hm (hno p (List.mem_of_getElem? hi))
  | some p =>
    obtain ⟨hpm, i, hlt, hi, hbefore⟩ := List.find?_eq_some_iff_getElem.mp hf
    have hi' : l.packages[i]? = some p := by rw [List.getElem?_eq_getElem hlt, hi]
    have hmem : p ∈ l.packages := List.mem_of_getElem? hi'
    have hnode := (hg (Dependency.ofPackage p) i ((hp p hmem).1)).mpr (nodeOf_self hd hi')
    have hmeant := (packageMatches_iff C p spec).mp hpm
    have hfirst : FirstMeant C l.packages spec i := by
      refine ⟨p, hi', hmeant, fun j q hj hq hm => ?_⟩
      have hjl : j < l.packages.length := Nat.lt_trans hj hlt
      have := hbefore j hj
      rw [List.getElem?_eq_getElem hjl] at hq
      cases hq
      rw [(packageMatches_iff C _ spec).mpr hm] at this
      cases this
    simp only [hnode]
    refine ⟨(fun h => by cases h), fun k => ⟨(fun h => by cases h; exact hfirst), ?_⟩, (fun h => by cases h), fun h => ?_⟩
    · rintro ⟨q, hk, hqm, hq⟩
      rcases Nat.lt_trichotomy i k with hlt' | rfl | hgt
      · exact absurd hmeant (hq i p hlt' hi')
      · rfl
      · obtain ⟨p', hp', -, hb⟩ := hfirst
        exact absurd hqm (hb k q hgt hk)
    · exact absurd hmeant (h p hmem)

theorem treeOut_eq : ∀ ts : List Str, treeOut ts = (ts.map Out.text).intersperse (.line [])
  | [] => rfl
  | [_] => rfl
  | _ :: b :: ts => by
    have h := treeOut_eq (b :: ts)
    show Out.text _ :: .line [] :: treeOut (b :: ts) = _
    rw [h]
    rfl

theorem drawTrees_ok {C : Codec} {l : Lockfile} (hp : Pinned l.packages) {t : Tree} (ht : Tree.new l = .ok t)
    (args : TreeArgs) : ∀ is : List Nat, (∀ i ∈ is, i < l.packages.length) → ∃ ts, drawTrees C t args is = .ok ts ∧
      List.Forall₂ (fun i text => t.render C i (if args.inverse then .incoming else .outgoing) args.exact = .ok text) is ts
  | [], _ => ⟨[], rfl, .nil⟩
  | i :: is, h => by
    obtain ⟨cs, label, -, -, hr⟩ := C32_drawing C l hp t ht i (h i List.mem_cons_self)
      (if args.inverse then .incoming else .outgoing) args.exact
    obtain ⟨ts, h1, h2⟩ := drawTrees_ok (C := C) hp ht args is fun j hj => h j (List.mem_cons_of_mem _ hj)
    refine ⟨_ :: ts, ?_, .cons hr h2⟩
    unfold drawTrees
    rw [hr, h1]
    rfl

/-- **C71.**  `cargo lock tree` of some packages draws, for every one given, the tree (C32) of the first package of the
lockfile that is meant, with a blank line between two trees.  If one of them means no package, it draws nothing and
fails; and so it does if the lockfile has no tree (C31). -/
theorem C71_tree (E : CliEnv) (args : TreeArgs) (l : Lockfile) (hl : loadLockfile E args.file = .ok l)
    (hp : Pinned l.packages) (hd : NoTwins l.packages) (hne : args.dependencies ≠ []) :
    (∀ t, Tree.new l = .ok t → (∀ spec ∈ args.dependencies, ∃ p ∈ l.packages, MeantBy E.codec p spec) →
      ∃ is texts, List.Forall₂ (FirstMeant E.codec l.packages) args.dependencies is ∧
        List.Forall₂ (fun i text => t.render E.codec i (if args.inverse then .incoming else .outgoing) args.exact =
          .ok text) is texts ∧
        (tree E args).stdout = (texts.map Out.text).intersperse (.line []) ∧ (tree E args).result = .ok ()) ∧
    ((∃ spec ∈ args.dependencies, ∀ p ∈ l.packages, ¬ MeantBy E.codec p spec) →
      (tree E args).stdout = [] ∧ (tree E args).result = .err) ∧
    ((∀ t, Tree.new l ≠ .ok t) → (tree E args).stdout = [] ∧ (tree E args).result = .err) := by
  have hemp : args.dependencies.isEmpty = false := by
    cases h : args.dependencies with
    | nil => exact absurd h hne
    | cons => rfl
  have hnp := (C31_new_ok_iff l hp).1
  refine ⟨fun t ht hall => ?_, fun hex => ?_, fun hno => ?_⟩
  · obtain ⟨is, his⟩ := (mapList_total (f := nodeFor E.codec l t) args.dependencies).mpr (fun spec hs => by
      obtain ⟨h1, h2, h3⟩ := nodeFor_iff E.codec l hp hd t ht spec
      cases hn : nodeFor E.codec l t spec with
      | ok i => exact ⟨i, rfl⟩
      | err =>
        obtain ⟨p, hpm, hm⟩ := hall spec hs
        exact absurd hm (h3.mp hn p hpm)
      | panic => exact absurd hn h1)
    have hfor : List.Forall₂ (FirstMeant E.codec l.packages) args.dependencies is :=
      ((mapList_iff _ _ _).mp his).imp fun spec i h => ((nodeFor_iff E.codec l hp hd t ht spec).2.1 i).mp h
    have hlt : ∀ i ∈ is, i < l.packages.length := by
      intro i hi
      obtain ⟨spec, -, p, hget, -⟩ := forall2_left hfor.flip hi
      exact (List.getElem?_eq_some_iff.mp hget).1
    obtain ⟨ts, h1, h2⟩ := drawTrees_ok (C := E.codec) hp ht args is hlt
    refine ⟨is, ts, hfor, h2, ?_, ?_⟩
    · unfold tree
      rw [hl]
      simp only [ht, hemp, his, h1, Bool.false_eq_true, if_false]
      exact treeOut_eq ts
    · unfold tree
      rw [hl]
      simp only [ht, hemp, his, h1, Bool.false_eq_true, if_false]
  · have hfail : ∀ t, Tree.new l = .ok t → Outcome.mapList (nodeFor E.codec l t) args.dependencies = .err := by
      intro t ht
      obtain ⟨spec, hs, hno⟩ := hex
      have key : ∀ specs : List Str, spec ∈ specs → Outcome.mapList (nodeFor E.codec l t) specs = .err := by
        intro specs
        induction specs with
        | nil => intro h; cases h
        | cons s specs ih =>
          intro hm
          obtain ⟨h1, h2, h3⟩ := nodeFor_iff E.codec l hp hd t ht s
          unfold Outcome.mapList
          cases hn : nodeFor E.codec l t s with
          | panic => exact absurd hn h1
          | err => rfl
          | ok i =>
            rcases List.mem_cons.mp hm with rfl | hm
            · exact absurd (h3.mpr hno) (by rw [hn]; exact fun h => by cases h)
            · rw [ih hm]
      exact key _ hs
    have e : tree E args = { result := .err } := by
      cases ht : Tree.new l with
      | ok t => unfold tree; rw [hl]; simp only [ht, hemp, hfail t ht, Bool.false_eq_true, if_false]
      | err => unfold tree; rw [hl]; simp only [ht]
      | panic => exact absurd ht hnp
    rw [e]
    exact ⟨rfl, rfl⟩
  · have e : tree E args = { result := .err } := by
      cases ht : Tree.new l with
      | ok t => exact absurd ht (hno t)
      | err => unfold tree; rw [hl]; simp only [ht]
      | panic => exact absurd ht hnp
    rw [e]
    exact ⟨rfl, rfl⟩

end Verif.Props
