import Verif.Spec.LockTree
import Verif.Props.LockCommands
import Verif.Props.LockCliTree

/-!
# C102: `cargo lock tree` on the text of a lockfile
-/

namespace Verif.Props

open Verif Verif.Lock Verif.LockCli Verif.Semver Verif.Spec

/-! ### The graph -/

/-- An edge goes from a package to one that its dependency names. -/
theorem edge_names {l : Lockfile} (hp : Pinned l.packages) {t : Tree} (ht : Tree.new l = .ok t) {e : Nat × Nat × Dependency}
    (he : e ∈ t.graph.edges) : e.1 < l.packages.length ∧ ∃ q, l.packages[e.2.1]? = some q ∧ NamesPkg e.2.2 q := by
  obtain ⟨-, -, hlen, hall⟩ := C31_graph l hp t ht
  obtain ⟨k, hk, rfl⟩ := List.getElem_of_mem he
  have hk' : k < (l.packages.flatMap fun p => p.dependencies.map fun d => (p, d)).length := hlen ▸ hk
  obtain ⟨i, j, h1, h2, h3⟩ := hall k _ _ (List.getElem?_eq_getElem hk')
  rw [List.getElem?_eq_getElem hk, Option.some.injEq] at h1
  rw [h1]
  obtain ⟨⟨p, hp', -⟩, -⟩ := h2
  exact ⟨(List.getElem?_eq_some_iff.mp hp').1, h3.1⟩

/-- A dependency names one package. -/
theorem names_one {ps : List Package} (hp : Pinned ps) (hd : NoTwins ps) {p : Package} (hpm : p ∈ ps) {d : Dependency}
    (hdm : d ∈ p.dependencies) {i j : Nat} {q r : Package} (hi : ps[i]? = some q) (hj : ps[j]? = some r) (hq : NamesPkg d q)
    (hr : NamesPkg d r) : i = j := by
  obtain ⟨h1, h2⟩ := pinned_ok hp
  refine hd i j q r hi hj ?_
  rw [names_iff] at hq hr ⊢
  exact dep_trans (h1 q (List.mem_of_getElem? hi)) (h2 p hpm d hdm) (h1 r (List.mem_of_getElem? hj)) (dep_symm hq) hr

theorem stands_under {l : Lockfile} (hp : Pinned l.packages) (hd : NoTwins l.packages) {t : Tree} (ht : Tree.new l = .ok t)
    (i : Nat) : StandsUnder l.packages i (t.graph.neighbours .outgoing i) := by
  intro p hi
  have h := (C31_edges l hp hd t ht i p hi).1
  rw [← h, ← List.map_reverse]
  unfold Graph.neighbours
  dsimp only
  rw [List.forall₂_map_left_iff, List.forall₂_map_right_iff]
  refine List.forall₂_same.mpr fun e he => ?_
  rw [List.mem_reverse, List.mem_filter] at he
  exact (edge_names hp ht he.1).2

theorem stands_under_inverse {l : Lockfile} (hp : Pinned l.packages) (hd : NoTwins l.packages) {t : Tree} (ht : Tree.new l = .ok t)
    (i : Nat) : StandsUnderInverse l.packages i (t.graph.neighbours .incoming i) := by
  classical
  refine ⟨fun j hj => ?_, fun p q hi j hj => ?_⟩
  · unfold Graph.neighbours at hj
    simp only [List.mem_map, List.mem_reverse, List.mem_filter] at hj
    obtain ⟨e, he, rfl⟩ := hj
    exact (edge_names hp ht he.1).1
  · have h := (C31_edges l hp hd t ht j p hj).1
    rw [← h, List.countP_map]
    unfold Graph.neighbours
    dsimp only
    rw [List.map_reverse, List.count_reverse, List.count, List.countP_map, List.countP_filter, List.countP_filter]
    refine List.countP_congr fun e he => ?_
    simp only [Function.comp_apply, Bool.and_eq_true, beq_iff_eq, decide_eq_true_eq]
    obtain ⟨-, r, hr, hn⟩ := edge_names hp ht he
    refine ⟨fun ⟨h1, h2⟩ => ⟨?_, h1⟩, fun ⟨h1, h2⟩ => ⟨h2, ?_⟩⟩
    · rw [h2, hi] at hr; cases hr; exact hn
    · have hem : e.2.2 ∈ p.dependencies := by
        rw [← h, List.mem_map]
        exact ⟨e, List.mem_filter.mpr ⟨he, by rw [h2]; exact beq_self_eq_true j⟩, rfl⟩
      exact names_one hp hd (List.mem_of_getElem? hj) hem hr hi hn h1

/-! ### The drawing -/

theorem package_label (U : UrlLib) (exact : Bool) (p : Package) : PackageLabel p exact (labelOf (semverCodec U) exact p) := by
  have e : ∀ a b : Str, (p.name ++ [' '] ++ p.version.text ++ ([' '] ++ (a ++ b))) =
      p.name ++ " ".toList ++ p.version.text ++ (' ' :: a) ++ b := by intro a b; simp
  cases exact with
  | false =>
    have : labelOf (semverCodec U) false p = p.name ++ " ".toList ++ p.version.text := by
      unfold labelOf; exact List.append_nil _
    rw [this]; exact .short
  | true =>
    cases hc : p.checksum with
    | some c =>
      have : labelOf (semverCodec U) true p = p.name ++ " ".toList ++ p.version.text ++ " checksum:".toList ++ c.show := by
        unfold labelOf; rw [hc]; exact e _ _
      rw [this]; exact .checksum c hc
    | none =>
      cases hs : p.source with
      | some s =>
        have : labelOf (semverCodec U) true p = p.name ++ " ".toList ++ p.version.text ++ " ".toList ++ s.asUrl false := by
          unfold labelOf; rw [hc, hs]; exact e [] _
        rw [this]; exact .source s hc hs
      | none =>
        have : labelOf (semverCodec U) true p = p.name ++ " ".toList ++ p.version.text ++ " inexact".toList := by
          unfold labelOf; rw [hc, hs]
          have h := e "inexact".toList []
          rw [List.append_nil, List.append_nil] at h
          exact h
        rw [this]; exact .inexact hc hs

theorem tree_of {U : UrlLib} {l : Lockfile} (hp : Pinned l.packages) (hd : NoTwins l.packages) {t : Tree} (ht : Tree.new l = .ok t)
    {i : Nat} (hi : i < l.packages.length) (inverse exact : Bool) {text : Str}
    (h : t.render (semverCodec U) i (if inverse then .incoming else .outgoing) exact = .ok text) :
    TreeOf l.packages inverse exact i text := by
  obtain ⟨cs, label, h1, h2, h3⟩ := C32_drawing (semverCodec U) l hp t ht i hi (if inverse then .incoming else .outgoing) exact
  rw [h] at h3
  cases h3
  refine ⟨cs, label, _, fun k p hk => ?_, fun k _ => ?_, h2, rfl⟩
  · rw [h1 k p hk]; exact package_label U exact p
  · cases inverse with
    | false => exact stands_under hp hd ht k
    | true => exact stands_under_inverse hp hd ht k

private theorem hasLine_append {text label : Str} (a b : Str) (ha : a = [] ∨ a.getLast? = some '\n') (h : HasLine text label) :
    HasLine (a ++ (text ++ b)) label := by
  obtain ⟨x, lead, y, rfl, hx, hl⟩ := h
  refine ⟨a ++ x, lead, y ++ b, by simp, ?_, hl⟩
  rcases hx with rfl | hx
  · simpa using ha
  · right
    rw [List.getLast?_append, hx]; rfl

private theorem draw_ends (label : Nat → Str) : ∀ (f : Forest) (ind : Str), f.draw label ind = [] ∨ (f.draw label ind).getLast? = some '\n'
  | .nil, _ => .inl rfl
  | .cons i cs rest, ind => by
    right
    unfold Forest.draw
    rw [List.getLast?_append, List.getLast?_append]
    rcases draw_ends label rest ind with h | h
    · rw [h]
      rcases draw_ends label cs (ind ++ if rest.more then "│   ".toList else "    ".toList) with h' | h'
      · rw [h']
        simp
      · rw [h']; rfl
    · rw [h]; rfl

private theorem draw_line (label : Nat → Str) (k : Nat) : ∀ (f : Forest) (ind : Str), (∀ c ∈ ind, c ∈ [' ', '│', '├', '└', '─']) →
    k ∈ f.occurrences.map Prod.fst → HasLine (f.draw label ind) (label k)
  | .nil, _, _, h => by cases h
  | .cons i cs rest, ind, hind, h => by
    unfold Forest.draw
    unfold Forest.occurrences at h
    rw [List.map_cons, List.map_append, List.mem_cons, List.mem_append] at h
    have hbranch : ∀ c ∈ (if rest.more then "├── ".toList else "└── ".toList), c ∈ [' ', '│', '├', '└', '─'] := by
      cases rest.more <;> decide
    have hbar : ∀ c ∈ (if rest.more then "│   ".toList else "    ".toList), c ∈ [' ', '│', '├', '└', '─'] := by
      cases rest.more <;> decide
    rcases h with rfl | h | h
    · refine ⟨[], ind ++ (if rest.more then "├── ".toList else "└── ".toList),
        cs.draw label (ind ++ if rest.more then "│   ".toList else "    ".toList) ++ rest.draw label ind, ?_, .inl rfl, fun c hc => ?_⟩
      · simp only [List.append_assoc, List.nil_append, List.singleton_append, List.cons_append]
      · rcases List.mem_append.mp hc with hc | hc
        · exact hind c hc
        · exact hbranch c hc
    · have := hasLine_append (ind ++ (if rest.more then "├── ".toList else "└── ".toList) ++ label i ++ ['\n']) (rest.draw label ind)
        (.inr (by simp)) (draw_line label k cs (ind ++ if rest.more then "│   ".toList else "    ".toList) (fun c hc => by
          rcases List.mem_append.mp hc with hc | hc
          · exact hind c hc
          · exact hbar c hc) h)
      rw [List.append_assoc (_ ++ ['\n'])]
      exact this
    · have := hasLine_append (ind ++ (if rest.more then "├── ".toList else "└── ".toList) ++ label i ++ ['\n'] ++
        cs.draw label (ind ++ if rest.more then "│   ".toList else "    ".toList)) [] (by
          right
          rw [List.getLast?_append]
          rcases draw_ends label cs (ind ++ if rest.more then "│   ".toList else "    ".toList) with h' | h'
          · rw [h']; simp
          · rw [h']; rfl) (draw_line label k rest ind hind h)
      rw [List.append_nil] at this
      exact this

private theorem label_unique {p : Package} {e : Bool} {x y : Str} (hx : PackageLabel p e x) (hy : PackageLabel p e y) : x = y := by
  cases hx with
  | short => cases hy; rfl
  | checksum c h => 
    cases hy with
    | checksum c' h' => rw [h] at h'; cases h'; rfl
    | source s h' => rw [h] at h'; cases h'
    | inexact h' => rw [h] at h'; cases h'
  | source s h hs =>
    cases hy with
    | checksum c' h' => rw [h] at h'; cases h'
    | source s' h' hs' => rw [hs] at hs'; cases hs'; rfl
    | inexact h' hs' => rw [hs] at hs'; cases hs'
  | inexact h hs =>
    cases hy with
    | checksum c' h' => rw [h] at h'; cases h'
    | source s' h' hs' => rw [hs] at hs'; cases hs'
    | inexact h' hs' => rfl

private theorem forall2_reverse {α β : Type} {R : α → β → Prop} {a : List α} {b : List β} (h : List.Forall₂ R a.reverse b) {x : α}
    (hx : x ∈ a) : ∃ y ∈ b, R x y := forall2_left h (List.mem_reverse.mpr hx)

/-- What a package depends on, directly or indirectly, has a line in its tree. -/
theorem tree_lines {ps : List Package} (hp : Pinned ps) (hd : NoTwins ps) {exact : Bool} {i k : Nat} {text : Str}
    (h : TreeOf ps false exact i text) (hk : DependsOn ps i k) {p : Package} (hpk : ps[k]? = some p) {x : Str}
    (hx : PackageLabel p exact x) : HasLine text x := by
  obtain ⟨cs, label, below, h1, h2, h3, rfl⟩ := h
  rw [label_unique hx (h1 k p hpk)]
  have hreach : Reach below i k := by
    clear hpk hx
    induction hk with
    | refl => exact .refl
    | step hij hj hk' hdm hn ih =>
      rename_i j k' p' q d
      refine .step ih ?_
      have := h2 j (List.getElem?_eq_some_iff.mp hj).1
      obtain ⟨m, hm, r, hr, hn'⟩ := forall2_reverse (this p' hj) hdm
      rw [names_one hp hd (List.mem_of_getElem? hj) hdm hk' hr hn hn']
      exact hm
  have hocc := (reach_iff h3 k).mpr hreach
  rcases List.mem_cons.mp hocc with rfl | hocc
  · exact ⟨[], [], cs.draw label [], by simp, .inl rfl, fun c hc => by cases hc⟩
  · have := hasLine_append (label i ++ ['\n']) [] (.inr (by simp)) (draw_line label k cs [] (fun c hc => by cases hc) hocc)
    rw [List.append_nil] at this
    exact this

/-! ### The command -/

private theorem printed_trees (F : LockTexts) (r : CliRun) {texts : List Str} (h : r.stdout = (texts.map Out.text).intersperse (.line [])) :
    r.printed F = List.intercalate ['\n'] texts := by
  unfold CliRun.printed
  rw [h]
  unfold List.intercalate
  clear h
  induction texts with
  | nil => rfl
  | cons x xs ih =>
    cases xs with
    | nil => simp [Out.shown]
    | cons y ys =>
      simp only [List.map_cons, List.intersperse_cons_cons, List.flatMap_cons, List.flatten_cons] at ih ⊢
      rw [ih]
      rfl

private theorem new_made {C : Codec} {l : Lockfile} (hm : CargoMade C l) (hp : Pinned l.packages) : ∃ t, Tree.new l = .ok t := by
  refine (C31_new_ok_iff l hp).2.mpr fun p hpm d hdm => ?_
  obtain ⟨q, hq, rfl⟩ := hm.complete p hpm d hdm
  exact ⟨q, hq, names_self q⟩

private theorem trees_of {U : UrlLib} {l : Lockfile} (hp : Pinned l.packages) (hd : NoTwins l.packages) {t : Tree}
    (ht : Tree.new l = .ok t) (inverse exact : Bool) {is : List Nat} {texts : List Str} (hi : ∀ i ∈ is, i < l.packages.length)
    (h : List.Forall₂ (fun i text => t.render (semverCodec U) i (if inverse then .incoming else .outgoing) exact = .ok text) is texts) :
    List.Forall₂ (TreeOf l.packages inverse exact) is texts := by
  induction h with
  | nil => exact .nil
  | cons h1 _ ih =>
    exact .cons (tree_of hp hd ht (hi _ (by simp)) inverse exact h1) (ih fun i hm => hi i (by simp [hm]))

/-- **C102.**  `cargo lock tree` with names, versions or `name@version` on the text of a lockfile prints, for each of them, the
tree of the first package that it means, with a blank line between trees; if one of them means no package it fails and prints
nothing. -/
theorem C102_tree (F : LockTexts) (args : TreeArgs) (text : Str) (l : Lockfile)
    (hf : F.file (args.file.getD "Cargo.lock".toList) = some text) (hl : LockfileOf (semverCodec F.url) text l)
    (hm : CargoMade (semverCodec F.url) l) (hp : Pinned l.packages) (hd : NoTwins l.packages) (hne : args.dependencies ≠ []) :
    ((∀ spec ∈ args.dependencies, ∃ p ∈ l.packages, MeantBy (semverCodec F.url) p spec) →
      (tree F.env args).result = .ok () ∧ ∃ is texts,
        List.Forall₂ (FirstMeant (semverCodec F.url) l.packages) args.dependencies is ∧
        List.Forall₂ (TreeOf l.packages args.inverse args.exact) is texts ∧
        (tree F.env args).printed F = List.intercalate ['\n'] texts) ∧
    ((∃ spec ∈ args.dependencies, ∀ p ∈ l.packages, ¬ MeantBy (semverCodec F.url) p spec) →
      (tree F.env args).result = .err ∧ (tree F.env args).printed F = []) := by
  have hload := (C100_load F args.file l).mpr ⟨text, hf, hl⟩
  obtain ⟨t, ht⟩ := new_made hm hp
  obtain ⟨h1, h2, -⟩ := C71_tree F.env args l hload hp hd hne
  refine ⟨fun hall => ?_, fun hno => ?_⟩
  · obtain ⟨is, texts, a1, a2, a3, a4⟩ := h1 t ht hall
    refine ⟨a4, is, texts, a1, trees_of hp hd ht _ _ (fun i hi => ?_) a2, printed_trees F _ a3⟩
    obtain ⟨spec, -, p, hpi, -⟩ := forall2_right a1 i hi
    exact (List.getElem?_eq_some_iff.mp hpi).1
  · obtain ⟨a1, a2⟩ := h2 hno
    refine ⟨a2, ?_⟩
    unfold CliRun.printed
    rw [a1]
    rfl

/-- **C102.**  `cargo lock tree` without arguments prints the trees of the packages that no other depends on, in order; if no package
depends on itself, directly or indirectly, and the trees are not inverse, every package of the text has a line. -/
theorem C102_whole (F : LockTexts) (args : TreeArgs) (text : Str) (l : Lockfile)
    (hf : F.file (args.file.getD "Cargo.lock".toList) = some text) (hl : LockfileOf (semverCodec F.url) text l)
    (hm : CargoMade (semverCodec F.url) l) (hp : Pinned l.packages) (hd : NoTwins l.packages) (hnone : args.dependencies = []) :
    (tree F.env args).result = .ok () ∧ (∃ is texts,
      (∀ i, i ∈ is ↔ i < l.packages.length ∧ ∀ j, ¬ Needs l.packages j i) ∧ is.Pairwise (· < ·) ∧
      List.Forall₂ (TreeOf l.packages args.inverse args.exact) is texts ∧
      (tree F.env args).printed F = List.intercalate ['\n'] texts) ∧
    (args.inverse = false → (∀ i j, Needs l.packages i j → ¬ DependsOn l.packages j i) → ∀ p ∈ l.packages,
      ∀ label, PackageLabel p args.exact label → HasLine ((tree F.env args).printed F) label) := by
  have hload := (C100_load F args.file l).mpr ⟨text, hf, hl⟩
  obtain ⟨t, ht⟩ := new_made hm hp
  obtain ⟨⟨is, texts, a1, a2, a3, a4, a5⟩, hcomplete⟩ := C71_whole_tree F.env args l hload hp hd hnone t ht
  have htrees := trees_of hp hd ht args.inverse args.exact (fun i hi => ((a1 i).mp hi).1) a3
  refine ⟨a5, ⟨is, texts, a1, a2, htrees, printed_trees F _ a4⟩, fun hinv hac p hpm label hlab => ?_⟩
  obtain ⟨k, hk⟩ := List.getElem?_of_mem hpm
  have hklt := (List.getElem?_eq_some_iff.mp hk).1
  obtain ⟨r, ls, hr, hroot, hls, hmem⟩ := hcomplete hac k hklt
  obtain ⟨⟨ls', hls', hiff⟩, -⟩ := C32_prints l hp hd t ht r hr
  rw [hls] at hls'
  cases hls'
  have hdep := (hiff k).mp hmem
  rw [hinv] at htrees
  obtain ⟨x, hx, hxt⟩ := forall2_left htrees ((a1 r).mpr ⟨hr, hroot⟩)
  have hline := tree_lines hp hd hxt hdep hk hlab
  rw [printed_trees F _ a4]
  clear a3 htrees a4
  unfold List.intercalate
  induction texts with
  | nil => cases hx
  | cons y ys ih =>
    cases ys with
    | nil =>
      cases List.mem_singleton.mp hx
      simpa using hline
    | cons z zs =>
      simp only [List.intersperse_cons_cons, List.flatten_cons] at ih ⊢
      rcases List.mem_cons.mp hx with rfl | hx
      · exact hasLine_append [] _ (.inl rfl) hline
      · have := hasLine_append (y ++ ['\n']) [] (.inr (by simp)) (ih hx)
        rw [List.append_nil, List.append_assoc] at this
        exact this

end Verif.Props
