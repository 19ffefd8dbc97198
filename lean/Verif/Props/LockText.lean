import Verif.Lemmas.TomlLex
import Verif.Lemmas.TomlBuild
import Verif.Props.Lockfile
import Verif.Props.LockfileV1
import Verif.Props.SyncText
import Verif.Props.LinterGate

/-!
# C86: the text of `Cargo.lock`

Proofs about `Verif/Model/LockText.lean` with the TOML reader of `Verif/Spec/Toml.lean`.
-/

namespace Verif.Props

open Verif.Toml Verif.Lock Verif.Spec

/-! ### The lines of the text -/

private theorem bareKey {k : Str} (hne : k ≠ []) (hk : k.all isBare = true) :
    ∀ rest : Str, rest.head? = some ' ' → simpleKey (k ++ rest) = some (k, rest) :=
  fun _ h => simpleKey_bare hne (List.all_eq_true.mp hk) h

/-- A line with what it says. -/
private abbrev Line := Str × Option Stmt

private def Good (c : Line) : Prop := Chunk c.1 c.2 ∧ Ends c.1 c.2

private theorem string_ne_nil {q v : Str}
    (hq : ∀ rest, rest.head? ≠ some '"' → rest.head? ≠ some '\'' → Toml.string (q ++ rest) = some (v, rest)) : q ≠ [] := by
  rintro rfl
  obtain ⟨c, r, h, _⟩ := string_head (hq [] (by simp) (by simp))
  simp at h

private theorem good_string {key q k v : Str}
    (hk : ∀ rest, rest.head? = some ' ' → simpleKey (key ++ rest) = some (k, rest))
    (hq : ∀ rest, rest.head? ≠ some '"' → rest.head? ≠ some '\'' → Toml.string (q ++ rest) = some (v, rest))
    (hl : q.getLast? ≠ some '\n') :
    Good (key ++ (" = ".toList ++ (q ++ ['\n'])), some (.pair [k] (.str v))) := by
  refine ⟨chunk_string hk hq, ⟨key ++ (" = ".toList ++ q), by simp [List.append_assoc], ?_, by simp⟩⟩
  rw [List.getLast?_append, List.getLast?_append]
  cases h : q.getLast? with
  | none => exact absurd (List.getLast?_eq_none_iff.mp h) (string_ne_nil hq)
  | some c => rw [h] at hl; simpa using hl

private def nameLine (T : TomlOut) (v : Str) : Line := (quoteLine T "name" v, some (.pair ["name".toList] (.str v)))
private def versionLine (T : TomlOut) (v : Str) : Line := (quoteLine T "version" v, some (.pair ["version".toList] (.str v)))
private def sourceLine (T : TomlOut) (v : Str) : Line := (quoteLine T "source" v, some (.pair ["source".toList] (.str v)))
private def checksumLine (T : TomlOut) (v : Str) : Line := (quoteLine T "checksum" v, some (.pair ["checksum".toList] (.str v)))
private def replaceLine (T : TomlOut) (v : Str) : Line := (quoteLine T "replace" v, some (.pair ["replace".toList] (.str v)))
private def blank : Line := (['\n'], none)

private def depsLines (T : TomlOut) (replace : Option Str) : List Str → List Line
  | [] => (replace.map (replaceLine T)).toList
  | d :: ds => [(depsText T none (d :: ds), some (.pair ["dependencies".toList] (.arr ((d :: ds).map .str))))]

private def pkgLines (T : TomlOut) (p : PkgDoc) : List Line :=
  [nameLine T p.name, versionLine T p.version] ++ (p.source.map (sourceLine T)).toList ++
    (p.checksum.map (checksumLine T)).toList ++ depsLines T p.replace p.dependencies

private def patchLines (T : TomlOut) (p : PatchDoc) : List Line :=
  [nameLine T p.name, versionLine T p.version] ++ (p.source.map (sourceLine T)).toList

private def metaLine (T : TomlOut) (e : Str × Str) : Line :=
  (T.prettyKey e.1 ++ (" = ".toList ++ (T.prettyValue e.2 ++ ['\n'])), some (.pair [e.1] (.str e.2)))

private def metaLines (T : TomlOut) : LockMetadata → List Line
  | [] => []
  | e :: m => ("[metadata]\n".toList, some (.table ["metadata".toList])) :: (e :: m).map (metaLine T)

private def versionLines : Option Nat → List Line
  | none => []
  | some n => [("version".toList ++ (" = ".toList ++ (showNat n ++ ['\n'])), some (.pair ["version".toList] (.int n)))]

private def docLines (T : TomlOut) (d : LockDoc) : List Line :=
  [("# This file is automatically @generated by Cargo.\n".toList, none),
    ("# It is not intended for manual editing.\n".toList, none)] ++ (versionLines d.version ++ ([blank] ++
  (d.packages.flatMap (fun p => ("[[package]]\n".toList, some (.item ["package".toList])) :: (pkgLines T p ++ [blank])) ++
  (d.patch.flatMap (fun p => ("[[patch.unused]]\n".toList, some (.item ["patch".toList, "unused".toList])) ::
    (patchLines T p ++ [blank, blank])) ++
  metaLines T d.metadata))))

private theorem good_blank : Good blank := ⟨chunk_blank, ⟨[], rfl, by simp, fun _ => rfl⟩⟩

private theorem flat_opt {f : Str → Line} {T : TomlOut} {k : String} (h : ∀ v, (f v).1 = quoteLine T k v) (o : Option Str) :
    (o.map f).toList.flatMap (·.1) = optLine T k o := by
  cases o <;> simp [optLine, h]

private theorem flat_deps (T : TomlOut) (r : Option Str) (ds : List Str) :
    (depsLines T r ds).flatMap (·.1) = depsText T r ds := by
  cases ds with
  | nil => exact flat_opt (fun _ => rfl) r
  | cons d ds => rw [depsLines, List.flatMap_singleton]; rfl

private theorem flat_pkg (T : TomlOut) (p : PkgDoc) : (pkgLines T p ++ [blank]).flatMap (·.1) = p.text T := by
  unfold pkgLines PkgDoc.text
  simp only [List.flatMap_append, List.flatMap_cons, List.flatMap_nil, List.append_nil, List.append_assoc,
    flat_opt (f := sourceLine T) (k := "source") (fun _ => rfl), flat_opt (f := checksumLine T) (k := "checksum") (fun _ => rfl),
    flat_deps]
  rfl

private theorem flat_patch (T : TomlOut) (p : PatchDoc) : (patchLines T p ++ [blank, blank]).flatMap (·.1) = p.text T := by
  unfold patchLines PatchDoc.text
  simp only [List.flatMap_append, List.flatMap_cons, List.flatMap_nil, List.append_nil, List.append_assoc,
    flat_opt (f := sourceLine T) (k := "source") (fun _ => rfl)]
  rfl

private theorem flat_meta (T : TomlOut) (m : LockMetadata) : (metaLines T m).flatMap (·.1) = metadataText T m := by
  cases m with
  | nil => rfl
  | cons e m =>
    rw [metaLines, List.flatMap_cons, List.flatMap_map]
    rfl

private theorem flat_version (v : Option Nat) : (versionLines v).flatMap (·.1) = versionText v := by
  cases v with
  | none => rfl
  | some n => rw [versionLines, List.flatMap_singleton]; rfl

/-- The text before the newlines at its end are removed. -/
private def rawText (T : TomlOut) (d : LockDoc) : Str :=
  "# This file is automatically @generated by Cargo.\n".toList ++
    ("# It is not intended for manual editing.\n".toList ++
    (versionText d.version ++ ('\n' ::
    (d.packages.flatMap (fun p => "[[package]]\n".toList ++ p.text T) ++
    (d.patch.flatMap (fun p => "[[patch.unused]]\n".toList ++ p.text T) ++ metadataText T d.metadata)))))

private theorem flat_doc (T : TomlOut) (d : LockDoc) : (docLines T d).flatMap (·.1) = rawText T d := by
  unfold docLines rawText
  rw [List.flatMap_append, List.flatMap_append, List.flatMap_append, List.flatMap_append, List.flatMap_append,
    flat_version, flat_meta, List.flatMap_assoc, List.flatMap_assoc]
  simp only [List.flatMap_cons (f := fun x : Line => x.1), flat_pkg, flat_patch]
  simp only [List.flatMap_nil, List.append_nil, List.append_assoc]
  rfl

/-! ### Every line is read -/

private theorem good_header1 : Good ("[[package]]\n".toList, some (.item ["package".toList])) := by
  refine ⟨⟨by decide, ?_⟩, ⟨"[[package]]".toList, by decide, by decide, by decide⟩⟩
  intro n rest hn
  cases n with
  | zero => simp at hn
  | succ n =>
    cases n with
    | zero => simp at hn
    | succ n => rfl

private theorem good_header2 : Good ("[[patch.unused]]\n".toList, some (.item ["patch".toList, "unused".toList])) := by
  refine ⟨⟨by decide, ?_⟩, ⟨"[[patch.unused]]".toList, by decide, by decide, by decide⟩⟩
  intro n rest hn
  cases n with
  | zero => simp at hn
  | succ n =>
    cases n with
    | zero => simp at hn
    | succ n => rfl

private theorem good_header3 : Good ("[metadata]\n".toList, some (.table ["metadata".toList])) := by
  refine ⟨⟨by decide, ?_⟩, ⟨"[metadata]".toList, by decide, by decide, by decide⟩⟩
  intro n rest hn
  cases n with
  | zero => simp at hn
  | succ n =>
    cases n with
    | zero => simp at hn
    | succ n => rfl

private theorem good_comment1 : Good ("# This file is automatically @generated by Cargo.\n".toList, none) := by
  refine ⟨⟨by decide, fun _ _ _ => rfl⟩, ⟨"# This file is automatically @generated by Cargo.".toList, by decide, by decide, by decide⟩⟩

private theorem good_comment2 : Good ("# It is not intended for manual editing.\n".toList, none) := by
  refine ⟨⟨by decide, fun _ _ _ => rfl⟩, ⟨"# It is not intended for manual editing.".toList, by decide, by decide, by decide⟩⟩

private theorem good_quote {T : TomlOut} (hT : WritesToml T) {k : String} (hne : k.toList ≠ [])
    (hk : k.toList.all isBare = true) (v : Str) : Good (quoteLine T k v, some (.pair [k.toList] (.str v))) :=
  good_string (bareKey hne hk) (hT.quote v) (hT.quote_last v)

private theorem good_opt {T : TomlOut} (hT : WritesToml T) {k : String} (hne : k.toList ≠ [])
    (hk : k.toList.all isBare = true) (o : Option Str) :
    ∀ c ∈ (o.map fun v => ((quoteLine T k v, some (.pair [k.toList] (.str v))) : Line)).toList, Good c := by
  cases o with
  | none => intro c hc; simp at hc
  | some v =>
    intro c hc
    simp only [Option.map_some, Option.toList_some, List.mem_singleton] at hc
    subst hc
    exact good_quote hT hne hk v

private theorem good_deps {T : TomlOut} (hT : WritesToml T) (r : Option Str) (ds : List Str) :
    ∀ c ∈ depsLines T r ds, Good c := by
  cases ds with
  | nil => exact good_opt hT (by decide) (by decide) r
  | cons d ds =>
    intro c hc
    simp only [depsLines, List.mem_singleton] at hc
    subst hc
    refine ⟨chunk_strings (key := "dependencies".toList) (d :: ds) (bareKey (by decide) (by decide)) hT.quote, ?_⟩
    refine ⟨"dependencies = [\n".toList ++ ((d :: ds).flatMap (fun d => ' ' :: (T.quote d ++ [',', '\n'])) ++ [']']), ?_, ?_, ?_⟩
    · show "dependencies = [\n".toList ++ ((d :: ds).flatMap _ ++ [']', '\n']) = _
      simp only [List.append_assoc, List.cons_append, List.nil_append]
    · rw [List.getLast?_append, List.getLast?_append]
      simp
    · simp

private theorem good_pkg {T : TomlOut} (hT : WritesToml T) (p : PkgDoc) : ∀ c ∈ pkgLines T p, Good c := by
  intro c hc
  simp only [pkgLines, List.mem_append] at hc
  rcases hc with ((hc | hc) | hc) | hc
  · simp only [List.mem_cons, List.not_mem_nil, or_false] at hc
    rcases hc with rfl | rfl
    · exact good_quote hT (by decide) (by decide) _
    · exact good_quote hT (by decide) (by decide) _
  · exact good_opt hT (by decide) (by decide) _ c hc
  · exact good_opt hT (by decide) (by decide) _ c hc
  · exact good_deps hT _ _ c hc

private theorem good_patch {T : TomlOut} (hT : WritesToml T) (p : PatchDoc) : ∀ c ∈ patchLines T p, Good c := by
  intro c hc
  simp only [patchLines, List.mem_append] at hc
  rcases hc with hc | hc
  · simp only [List.mem_cons, List.not_mem_nil, or_false] at hc
    rcases hc with rfl | rfl
    · exact good_quote hT (by decide) (by decide) _
    · exact good_quote hT (by decide) (by decide) _
  · exact good_opt hT (by decide) (by decide) _ c hc

private theorem good_meta {T : TomlOut} (hT : WritesToml T) (m : LockMetadata) : ∀ c ∈ metaLines T m, Good c := by
  cases m with
  | nil => intro c hc; cases hc
  | cons e m =>
    intro c hc
    rw [metaLines] at hc
    rcases List.mem_cons.mp hc with rfl | hc
    · exact good_header3
    · obtain ⟨e', _, rfl⟩ := List.mem_map.mp hc
      exact good_string (hT.key e'.1) (hT.value e'.2) (hT.value_last e'.2)

private theorem showNat_last (n : Nat) : (showNat n).getLast? ≠ some '\n' := by
  intro h
  have := List.mem_of_getLast? h
  exact absurd (isDigit_of_mem_showNat this) (by decide)

private theorem good_version (v : Option Nat) : ∀ c ∈ versionLines v, Good c := by
  cases v with
  | none => intro c hc; cases hc
  | some n =>
    intro c hc
    simp only [versionLines, List.mem_singleton] at hc
    subst hc
    refine ⟨chunk_number n (bareKey (by decide) (by decide)), ⟨"version".toList ++ (" = ".toList ++ showNat n), ?_, ?_, ?_⟩⟩
    · simp
    · rw [List.getLast?_append, List.getLast?_append]
      cases h : (showNat n).getLast? with
      | none => exact absurd (List.getLast?_eq_none_iff.mp h) (showNat_ne_nil n)
      | some c => have := showNat_last n; rw [h] at this; simpa using this
    · simp

private theorem good_doc {T : TomlOut} (hT : WritesToml T) (d : LockDoc) : ∀ c ∈ docLines T d, Good c := by
  intro c hc
  simp only [docLines, List.mem_append] at hc
  rcases hc with hc | hc | hc | hc | hc | hc
  · rcases List.mem_cons.mp hc with rfl | hc
    · exact good_comment1
    · rw [List.mem_singleton.mp hc]
      exact good_comment2
  · exact good_version _ c hc
  · rw [List.mem_singleton.mp hc]
    exact good_blank
  · obtain ⟨p, _, hc⟩ := List.mem_flatMap.mp hc
    rcases List.mem_cons.mp hc with rfl | hc
    · exact good_header1
    · rcases List.mem_append.mp hc with hc | hc
      · exact good_pkg hT p c hc
      · rw [List.mem_singleton.mp hc]
        exact good_blank
  · obtain ⟨p, _, hc⟩ := List.mem_flatMap.mp hc
    rcases List.mem_cons.mp hc with rfl | hc
    · exact good_header2
    · rcases List.mem_append.mp hc with hc | hc
      · exact good_patch hT p c hc
      · simp only [List.mem_cons, List.not_mem_nil, or_false, or_self] at hc
        subst hc
        exact good_blank
  · exact good_meta hT _ c hc

/-! ### What the lines say -/

private theorem says_opt {f : Str → Line} {k : String} (h : ∀ v, (f v).2 = some (.pair [k.toList] (.str v))) (o : Option Str) :
    (o.map f).toList.filterMap (·.2) = pairs (optField k o) := by
  cases o <;> simp [optField, textField, pairs, h]

private theorem says_deps (T : TomlOut) (r : Option Str) (ds : List Str) :
    (depsLines T r ds).filterMap (·.2) =
      pairs (listField "dependencies" (ds.map .str) ++ (if ds.isEmpty then optField "replace" r else [])) := by
  cases ds with
  | nil => exact says_opt (fun _ => rfl) r
  | cons d ds => rfl

private theorem pairs_append (a b : Table) : pairs (a ++ b) = pairs a ++ pairs b := by simp [pairs]

private theorem says_pkg (T : TomlOut) (p : PkgDoc) : (pkgLines T p).filterMap (·.2) = pairs (packageTable p) := by
  unfold pkgLines packageTable
  rw [List.append_assoc (as := textField _ _ ++ textField _ _ ++ _ ++ _), pairs_append (b := listField _ _ ++ _), ← says_deps T,
    pairs_append, pairs_append, List.filterMap_append, List.filterMap_append, List.filterMap_append,
    says_opt (f := sourceLine T) (k := "source") (fun _ => rfl), says_opt (f := checksumLine T) (k := "checksum") (fun _ => rfl)]
  rfl

private theorem says_patch (T : TomlOut) (p : PatchDoc) : (patchLines T p).filterMap (·.2) = pairs (patchTable p) := by
  unfold patchLines patchTable
  rw [pairs_append, List.filterMap_append, says_opt (f := sourceLine T) (k := "source") (fun _ => rfl)]
  rfl

private def metaTable (m : LockMetadata) : Table := m.map fun e => (e.1, .str e.2)

private def metaStmts (m : LockMetadata) : List Stmt :=
  if m.isEmpty then [] else .table ["metadata".toList] :: pairs (metaTable m)

private theorem says_meta (T : TomlOut) (m : LockMetadata) : (metaLines T m).filterMap (·.2) = metaStmts m := by
  cases m with
  | nil => rfl
  | cons e m =>
    rw [metaLines, List.filterMap_cons, List.filterMap_map]
    show Stmt.table _ :: _ = Stmt.table _ :: _
    congr 1
    rw [show ((fun x : Line => x.2) ∘ metaLine T) = some ∘ (fun e => Stmt.pair [e.1] (.str e.2)) from rfl,
      ← List.filterMap_map, List.filterMap_some]
    simp [pairs, metaTable]

private theorem says_version (v : Option Nat) : (versionLines v).filterMap (·.2) = pairs (versionField v) := by
  cases v <;> rfl

private theorem filterMap_flatMap' {α β γ : Type} (f : β → Option γ) (g : α → List β) (l : List α) :
    (l.flatMap g).filterMap f = l.flatMap fun a => (g a).filterMap f := by
  induction l with
  | nil => rfl
  | cons a l ih => simp [List.filterMap_append, ih]

private theorem says_doc (T : TomlOut) (d : LockDoc) :
    (docLines T d).filterMap (·.2) = pairs (versionField d.version) ++
      (itemLines ["package".toList] (d.packages.map packageTable) ++
        (itemLines ["patch".toList, "unused".toList] (d.patch.map patchTable) ++ metaStmts d.metadata)) := by
  unfold docLines itemLines
  rw [List.filterMap_append, List.filterMap_append, List.filterMap_append, List.filterMap_append, List.filterMap_append,
    says_version, says_meta, filterMap_flatMap', filterMap_flatMap', List.flatMap_map, List.flatMap_map]
  have h1 : ∀ p : PkgDoc, ((("[[package]]\n".toList, some (Stmt.item ["package".toList])) ::
      (pkgLines T p ++ [blank])).filterMap (·.2)) = .item ["package".toList] :: pairs (packageTable p) := by
    intro p
    rw [List.filterMap_cons, List.filterMap_append, says_pkg]
    simp [blank]
  have h2 : ∀ p : PatchDoc, ((("[[patch.unused]]\n".toList, some (Stmt.item ["patch".toList, "unused".toList])) ::
      (patchLines T p ++ [blank, blank])).filterMap (·.2)) =
        .item ["patch".toList, "unused".toList] :: pairs (patchTable p) := by
    intro p
    rw [List.filterMap_cons, List.filterMap_append, says_patch]
    simp [blank]
  simp only [h1, h2]
  rfl

/-! ### The document of the text -/

private theorem ordered_nodup {m : LockMetadata} (h : OrderedKeys m) : (m.map (·.1)).Nodup := by
  rw [List.Nodup, List.pairwise_map]
  refine List.Pairwise.imp ?_ h
  intro a b hab heq
  rw [heq] at hab
  have : strCmp b.1 b.1 = .eq := (strCmp_eq_iff _ _).mpr rfl
  rw [this] at hab
  cases hab

private theorem package_keys (p : PkgDoc) : ((packageTable p).map (·.1)).Nodup := by
  obtain ⟨n, v, s, c, ds, r⟩ := p
  cases s <;> cases c <;> cases ds <;> cases r <;> exact of_decide_eq_true rfl

private theorem patch_keys (p : PatchDoc) : ((patchTable p).map (·.1)).Nodup := by
  obtain ⟨n, v, s⟩ := p
  cases s <;> exact of_decide_eq_true rfl

private theorem version_keys (v : Option Nat) : ((versionField v).map (·.1)).Nodup := by
  cases v <;> simp [versionField]

private theorem notMem_version {k : Str} (hk : k ≠ "version".toList) (v : Option Nat) :
    k ∉ (leaves (versionField v)).map (·.1) := by
  rw [keys_leaves]
  cases v with
  | none => simp [versionField]
  | some n => simpa [versionField] using hk

/-- The statements of a lockfile make its document. -/
private theorem build_doc (d : LockDoc) (hm : (d.metadata.map (·.1)).Nodup) :
    (build (pairs (versionField d.version) ++
      (itemLines ["package".toList] (d.packages.map packageTable) ++
        (itemLines ["patch".toList, "unused".toList] (d.patch.map patchTable) ++ metaStmts d.metadata))) [] []).map
      entriesValue = some (lockTable d) := by
  have hfree : Free (metaStmts d.metadata) := by
    unfold metaStmts
    split
    · exact free_nil
    · exact free_table _ _
  have h0 := build_pairs (path := []) (ctx := id) (fun f t => by rw [Option.map_id]; rfl) (versionField d.version)
    (itemLines ["package".toList] (d.packages.map packageTable) ++
        (itemLines ["patch".toList, "unused".toList] (d.patch.map patchTable) ++ metaStmts d.metadata)) []
    (version_keys _) (by simp)
  simp only [id, List.nil_append] at h0
  rw [h0]
  have h1 : "package".toList ∉ (leaves (versionField d.version)).map (·.1) := notMem_version (by decide) _
  rw [build_items (itemsAt_top h1) _ (by
    intro t ht
    obtain ⟨p, _, rfl⟩ := List.mem_map.mp ht
    exact package_keys p) (free_items hfree _ _)]
  have hE1 : (if (d.packages.map packageTable).isEmpty = true then leaves (versionField d.version) else
      leaves (versionField d.version) ++ [("package".toList, .items ((d.packages.map packageTable).map leaves))]) =
      leaves (versionField d.version) ++ (if d.packages.isEmpty then [] else
        [("package".toList, .items ((d.packages.map packageTable).map leaves))]) := by
    cases d.packages <;> simp
  rw [hE1]
  have h2 : "patch".toList ∉ (leaves (versionField d.version) ++ (if d.packages.isEmpty then [] else
        [("package".toList, Node.items ((d.packages.map packageTable).map leaves))])).map (·.1) := by
    rw [List.map_append, List.mem_append]
    rintro (h | h)
    · exact notMem_version (by decide) _ h
    · split at h
      · simp at h
      · exact absurd h (by simp only [List.map_cons, List.map_nil, List.mem_singleton]; decide)
  have h3 : "metadata".toList ∉ (leaves (versionField d.version) ++ (if d.packages.isEmpty then [] else
        [("package".toList, Node.items ((d.packages.map packageTable).map leaves))])).map (·.1) := by
    rw [List.map_append, List.mem_append]
    rintro (h | h)
    · exact notMem_version (by decide) _ h
    · split at h
      · simp at h
      · exact absurd h (by simp only [List.map_cons, List.map_nil, List.mem_singleton]; decide)
  rw [build_items (itemsAt_in h2) _ (by
    intro t ht
    obtain ⟨p, _, rfl⟩ := List.mem_map.mp ht
    exact patch_keys p) hfree]
  have hv1 : entriesValue (leaves (versionField d.version) ++ (if d.packages.isEmpty then [] else
        [("package".toList, Node.items ((d.packages.map packageTable).map leaves))])) =
      versionField d.version ++ listField "package" (d.packages.map fun p => .table (packageTable p)) := by
    rw [entriesValue_append, entriesValue_leaves]
    congr 1
    cases hp : d.packages with
    | nil => rfl
    | cons p ps =>
      rw [if_neg (by simp), entriesValue, Node.value, itemsValue_leaves, entriesValue, List.map_map]
      rfl
  generalize leaves (versionField d.version) ++ (if d.packages.isEmpty then [] else
        [("package".toList, Node.items ((d.packages.map packageTable).map leaves))]) = E at hv1 h2 h3
  have hE2 : (if (d.patch.map patchTable).isEmpty = true then E else
      E ++ [("patch".toList, .tbl .super [("unused".toList, .items ((d.patch.map patchTable).map leaves))])]) =
      E ++ (if d.patch.isEmpty then [] else
        [("patch".toList, .tbl .super [("unused".toList, .items ((d.patch.map patchTable).map leaves))])]) := by
    cases d.patch <;> simp
  rw [hE2]
  have h4 : "metadata".toList ∉ (E ++ (if d.patch.isEmpty then [] else
        [("patch".toList, Node.tbl .super [("unused".toList, .items ((d.patch.map patchTable).map leaves))])])).map (·.1) := by
    rw [List.map_append, List.mem_append]
    rintro (h | h)
    · exact h3 h
    · split at h
      · simp at h
      · exact absurd h (by simp only [List.map_cons, List.map_nil, List.mem_singleton]; decide)
  have hv2 : entriesValue (E ++ (if d.patch.isEmpty then [] else
        [("patch".toList, Node.tbl .super [("unused".toList, .items ((d.patch.map patchTable).map leaves))])])) =
      versionField d.version ++ listField "package" (d.packages.map fun p => .table (packageTable p)) ++
        (if d.patch.isEmpty then [] else
      [("patch".toList, .table (listField "unused" (d.patch.map fun p => .table (patchTable p))))]) := by
    rw [entriesValue_append, hv1]
    congr 1
    cases hp : d.patch with
    | nil => rfl
    | cons p ps =>
      rw [if_neg (by simp), if_neg (by simp)]
      simp only [entriesValue, Node.value, itemsValue_leaves]
      rw [List.map_map]
      rfl
  unfold lockTable metaStmts
  rw [← hv2]
  generalize (E ++ (if d.patch.isEmpty then [] else
        [("patch".toList, Node.tbl .super [("unused".toList, .items ((d.patch.map patchTable).map leaves))])])) = F at h4
  cases hmd : d.metadata with
  | nil =>
    rw [if_pos (by rfl), if_pos (by rfl), List.append_nil, build, Option.map_some]
  | cons e m =>
    rw [if_neg (by simp), if_neg (by simp), build_table h4 _ (by
      rw [hmd] at hm
      simpa [metaTable, Function.comp_def] using hm), Option.map_some, entriesValue_append, entriesValue, Node.value,
      entriesValue_leaves, entriesValue]
    rfl

/-- C86: the text of a lockfile is a TOML document with the fields of the lockfile, in order. -/
theorem C86_document {T : TomlOut} (hT : WritesToml T) (d : LockDoc) (hm : OrderedKeys d.metadata) :
    Toml.read (d.text T) = some (lockTable d) := by
  have hgood := good_doc hT d
  obtain ⟨cs, hpre, hsame, htext⟩ := trim_chunks (cs := docLines T d) (fun c hc => (hgood c hc).2)
  rw [flat_doc] at htext
  have ht : d.text T = cs.flatMap (·.1) := htext
  rw [ht]
  unfold Toml.read
  rw [statements_chunks (fun c hc => (hgood c (hpre.subset hc)).1) _ (Nat.lt_succ_self _), Option.bind_some, hsame, says_doc]
  exact build_doc d (ordered_nodup hm)

/-- C86: the same if a newline follows, as when the text is printed. -/
theorem C86_document_line {T : TomlOut} (hT : WritesToml T) (d : LockDoc) (hm : OrderedKeys d.metadata) :
    Toml.read (d.text T ++ ['\n']) = some (lockTable d) := by
  have hgood := good_doc hT d
  obtain ⟨cs, hpre, hsame, htext⟩ := trim_chunks (cs := docLines T d) (fun c hc => (hgood c hc).2)
  rw [flat_doc] at htext
  have ht : d.text T ++ ['\n'] = (cs ++ [blank]).flatMap (·.1) := by
    rw [List.flatMap_append, ← htext]; rfl
  rw [ht]
  unfold Toml.read
  rw [statements_chunks (fun c hc => ?_) _ (Nat.lt_succ_self _), Option.bind_some, List.filterMap_append, hsame, says_doc]
  · rw [show [blank].filterMap (·.2) = [] from rfl, List.append_nil]
    exact build_doc d (ordered_nodup hm)
  · rcases List.mem_append.mp hc with hc | hc
    · exact (hgood c (hpre.subset hc)).1
    · rw [List.mem_singleton] at hc
      subst hc
      exact good_blank.1

/-! ### Reading the document -/

private theorem mem_metaInsert' {k v : Str} {m : LockMetadata} {e : Str × Str} (h : e ∈ metaInsert k v m) :
    e = (k, v) ∨ e ∈ m := by
  induction m with
  | nil => simp only [metaInsert, List.mem_singleton] at h; exact Or.inl h
  | cons x m ih =>
    obtain ⟨k', v'⟩ := x
    simp only [metaInsert] at h
    split at h <;> rcases List.mem_cons.mp h with h | h
    · exact Or.inl h
    · exact Or.inr h
    · exact Or.inl h
    · exact Or.inr (by simp [h])
    · exact Or.inr (by simp [h])
    · rcases ih h with h | h
      · exact Or.inl h
      · exact Or.inr (by simp [h])

private theorem ordered_insert {k v : Str} {m : LockMetadata} (h : OrderedKeys m) : OrderedKeys (metaInsert k v m) := by
  induction m with
  | nil => simp [metaInsert, OrderedKeys]
  | cons x m ih =>
    obtain ⟨k', v'⟩ := x
    obtain ⟨h1, h2⟩ := List.pairwise_cons.mp h
    simp only [metaInsert]
    split
    · rename_i hc
      refine List.pairwise_cons.mpr ⟨?_, h⟩
      intro e he
      rcases List.mem_cons.mp he with rfl | he
      · exact hc
      · exact Std.TransCmp.lt_trans (cmp := List.compareLex compare) hc (h1 e he)
    · rename_i hc
      have hkk : k = k' := (strCmp_eq_iff _ _).mp hc
      subst hkk
      exact List.pairwise_cons.mpr ⟨h1, h2⟩
    · rename_i hc
      refine List.pairwise_cons.mpr ⟨?_, ih h2⟩
      intro e he
      rcases mem_metaInsert' he with rfl | he
      · exact Std.OrientedCmp.lt_of_gt (cmp := List.compareLex compare) hc
      · exact h1 e he

private theorem insert_last {k v : Str} {m : LockMetadata} (h : ∀ e ∈ m, strCmp e.1 k = .lt) :
    metaInsert k v m = m ++ [(k, v)] := by
  induction m with
  | nil => rfl
  | cons x m ih =>
    obtain ⟨k', v'⟩ := x
    have : strCmp k k' = .gt := Std.OrientedCmp.gt_of_lt (cmp := List.compareLex compare) (h (k', v') (by simp))
    simp only [metaInsert, this]
    rw [ih (fun e he => h e (by simp [he]))]
    rfl

private theorem insert_all {m a : LockMetadata} (h : OrderedKeys (a ++ m)) :
    m.foldl (fun m e => metaInsert e.1 e.2 m) a = a ++ m := by
  induction m generalizing a with
  | nil => simp
  | cons e m ih =>
    rw [List.foldl_cons, insert_last, ih]
    · simp
    · simpa using h
    · intro x hx
      exact (List.pairwise_append.mp h).2.2 x hx e (by simp)

private theorem inserted_ordered (m a : LockMetadata) (h : OrderedKeys a) :
    OrderedKeys (m.foldl (fun m e => metaInsert e.1 e.2 m) a) := by
  induction m generalizing a with
  | nil => exact h
  | cons e m ih => exact ih _ (ordered_insert h)

private theorem str_list (l : List Str) : asArr asStr (.arr (l.map .str)) = .ok l := by
  show Outcome.mapList asStr (l.map .str) = _
  rw [mapList_map, mapList_eq_ok (g := id)]
  · simp
  · intro a _; rfl

private theorem pkg_back (p : PkgDoc) (h : p.dependencies ≠ [] → p.replace = none) :
    PkgDoc.ofValue (.table (packageTable p)) = .ok p := by
  obtain ⟨n, v, s, c, ds, r⟩ := p
  simp only at h
  have hdeps : orDefault (packageTable ⟨n, v, s, c, ds, r⟩) "dependencies" [] (asArr asStr) = .ok ds := by
    cases ds with
    | nil => cases s <;> cases c <;> cases r <;> rfl
    | cons d ds =>
      have : tableGet (packageTable ⟨n, v, s, c, d :: ds, r⟩) "dependencies" = some (.arr ((d :: ds).map .str)) := by
        cases s <;> cases c <;> rfl
      unfold orDefault
      rw [this]
      exact str_list _
  have hname : needed (packageTable ⟨n, v, s, c, ds, r⟩) "name" asStr = .ok n := rfl
  have hversion : needed (packageTable ⟨n, v, s, c, ds, r⟩) "version" asStr = .ok v := rfl
  have hsource : optionally (packageTable ⟨n, v, s, c, ds, r⟩) "source" asStr = .ok s := by
    cases s <;> cases c <;> cases ds <;> cases r <;> rfl
  have hchecksum : optionally (packageTable ⟨n, v, s, c, ds, r⟩) "checksum" asStr = .ok c := by
    cases s <;> cases c <;> cases ds <;> cases r <;> rfl
  have hreplace : optionally (packageTable ⟨n, v, s, c, ds, r⟩) "replace" asStr = .ok r := by
    cases ds with
    | nil => cases s <;> cases c <;> cases r <;> rfl
    | cons d ds =>
      rw [h (by simp)]
      cases s <;> cases c <;> rfl
  unfold PkgDoc.ofValue
  simp only
  rw [hname, hversion, hsource, hchecksum, hdeps, hreplace]
  rfl

private theorem patch_back (p : PatchDoc) : PatchDoc.ofValue (.table (patchTable p)) = .ok p := by
  obtain ⟨n, v, s⟩ := p
  cases s <;> rfl

private theorem meta_back {m : LockMetadata} (h : OrderedKeys m) : metadataOfValue (.table (metaTable m)) = .ok m := by
  unfold metadataOfValue metaTable
  simp only
  rw [mapList_map, mapList_eq_ok (g := id)]
  · rw [List.map_id, Outcome.bind_ok, insert_all (by simpa using h)]
    rfl
  · intro e _; rfl

/-- Documents that cargo-lock writes. -/
private structure Written (d : LockDoc) : Prop where
  root : d.root = none
  version : ∀ n, d.version = some n → n < 4294967296
  metadata : OrderedKeys d.metadata
  replace : ∀ p ∈ d.packages, p.dependencies ≠ [] → p.replace = none

private theorem doc_back {d : LockDoc} (h : Written d) : LockDoc.ofTable (lockTable d) = .ok d := by
  obtain ⟨v, ps, r, m, ts⟩ := d
  obtain ⟨hr, hv, hm, hrep⟩ := h
  simp only at hr hv hm hrep
  subst hr
  have hversion : optionally (lockTable ⟨v, ps, none, m, ts⟩) "version" asU32 = .ok v := by
    cases v with
    | none => cases ps <;> cases m <;> cases ts <;> rfl
    | some n =>
      have : tableGet (lockTable ⟨some n, ps, none, m, ts⟩) "version" = some (.int n) := rfl
      unfold optionally
      rw [this]
      simp only [asU32]
      rw [if_pos ⟨by omega, by have := hv n rfl; omega⟩]
      simp only [Outcome.bind_ok, Int.toNat_natCast]
      rfl
  have hpackage : orDefault (lockTable ⟨v, ps, none, m, ts⟩) "package" [] (asArr PkgDoc.ofValue) = .ok ps := by
    cases ps with
    | nil => cases v <;> cases m <;> cases ts <;> rfl
    | cons p ps =>
      have : tableGet (lockTable ⟨v, p :: ps, none, m, ts⟩) "package" =
          some (.arr ((p :: ps).map fun p => .table (packageTable p))) := by
        cases v <;> rfl
      unfold orDefault
      rw [this]
      show Outcome.mapList PkgDoc.ofValue ((p :: ps).map fun p => .table (packageTable p)) = _
      rw [mapList_map, mapList_eq_ok (g := id)]
      · simp
      · intro a ha
        exact pkg_back a (hrep a ha)
  have hroot : optionally (lockTable ⟨v, ps, none, m, ts⟩) "root" PkgDoc.ofValue = .ok none := by
    cases v <;> cases ps <;> cases m <;> cases ts <;> rfl
  have hmeta : orDefault (lockTable ⟨v, ps, none, m, ts⟩) "metadata" [] metadataOfValue = .ok m := by
    cases m with
    | nil => cases v <;> cases ps <;> cases ts <;> rfl
    | cons e m =>
      have : tableGet (lockTable ⟨v, ps, none, e :: m, ts⟩) "metadata" = some (.table (metaTable (e :: m))) := by
        cases v <;> cases ps <;> cases ts <;> rfl
      unfold orDefault
      rw [this]
      exact meta_back hm
  have hpatch : orDefault (lockTable ⟨v, ps, none, m, ts⟩) "patch" [] patchOfValue = .ok ts := by
    cases ts with
    | nil => cases v <;> cases ps <;> cases m <;> rfl
    | cons t ts =>
      have : tableGet (lockTable ⟨v, ps, none, m, t :: ts⟩) "patch" =
          some (.table (listField "unused" ((t :: ts).map fun p => .table (patchTable p)))) := by
        cases v <;> cases ps <;> cases m <;> rfl
      unfold orDefault
      rw [this]
      show Outcome.mapList PatchDoc.ofValue ((t :: ts).map fun p => .table (patchTable p)) = _
      rw [mapList_map, mapList_eq_ok (g := id)]
      · simp
      · intro a _
        exact patch_back a
  unfold LockDoc.ofTable
  rw [hversion, hpackage, hroot, hmeta, hpatch]
  rfl

private theorem ordered_step {C : Codec} {v : ResolveVersion} {m : LockMetadata} (h : OrderedKeys m) (p : Package) :
    OrderedKeys (metaStep C v m p) := by
  unfold metaStep
  simp only
  split
  · split
    · exact ordered_insert h
    · exact h
  · exact List.Pairwise.filter _ h

private theorem ordered_steps {C : Codec} {v : ResolveVersion} (ps : List Package) {m : LockMetadata} (h : OrderedKeys m) :
    OrderedKeys (ps.foldl (metaStep C v) m) := by
  induction ps generalizing m with
  | nil => exact h
  | cons p ps ih => exact ih (ordered_step h p)

private theorem print_written (C : Codec) {l : Lockfile} (h : OrderedKeys l.metadata) : Written (l.print C) := by
  refine ⟨rfl, ?_, ordered_steps _ h, ?_⟩
  · intro n hn
    have : emitVersion (if l.version.isExplicit then some l.version.toNat else none) = some n := hn
    revert this
    cases l.version <;> simp [emitVersion, ResolveVersion.isExplicit, ResolveVersion.toNat] <;> omega
  · intro p hp hne
    obtain ⟨e, _, rfl⟩ := List.mem_map.mp hp
    have : e.dependencies ≠ [] := by
      intro h0
      exact hne (by simp [EncPackage.emit, h0])
    simp [EncPackage.emit, this]

/-- C86: reading the text of a lockfile gives what its fields give. -/
theorem C86_text (C : Codec) {T : TomlOut} (hT : WritesToml T) (l : Lockfile) (h : OrderedKeys l.metadata) :
    Lockfile.fromText C Toml.read (l.text C T) = Lockfile.parse C (l.print C) := by
  have hw := print_written C h
  unfold Lockfile.fromText Lockfile.text
  rw [C86_document hT _ hw.metadata]
  simp only
  rw [doc_back hw, Outcome.bind_ok]

/-- C86: the same if a newline follows. -/
theorem C86_text_line (C : Codec) {T : TomlOut} (hT : WritesToml T) (l : Lockfile) (h : OrderedKeys l.metadata) :
    Lockfile.fromText C Toml.read (l.text C T ++ ['\n']) = Lockfile.parse C (l.print C) := by
  have hw := print_written C h
  unfold Lockfile.fromText Lockfile.text
  rw [C86_document_line hT _ hw.metadata]
  simp only
  rw [doc_back hw, Outcome.bind_ok]

/-- C86: writing a well-formed lockfile of format V2, V3 or V4 as text and reading the text gives the same lockfile. -/
theorem C86_round_trip (C : Codec) {T : TomlOut} (hT : WritesToml T) (l : Lockfile) (h : OrderedKeys l.metadata)
    (hl : WellFormed C l) : Lockfile.fromText C Toml.read (l.text C T) = .ok l := by
  rw [C86_text C hT l h, C28_round_trip C l hl]

/-- C86: for format V1: the metadata gains the checksums, the rest is the same. -/
theorem C86_round_trip_v1 (C : Codec) {T : TomlOut} (hT : WritesToml T) (l : Lockfile) (h : OrderedKeys l.metadata)
    (hl : WellFormedV1 C l) :
    Lockfile.fromText C Toml.read (l.text C T) = .ok { l with metadata := (l.print C).metadata } := by
  rw [C86_text C hT l h, (C30_round_trip C l hl).1]

/-- C86: the metadata of a lockfile that was read from a text is a map. -/
theorem C86_ordered (C : Codec) (toml : Str → Option Table) (s : Str) (l : Lockfile)
    (h : Lockfile.fromText C toml s = .ok l) : OrderedKeys l.metadata := by
  unfold Lockfile.fromText at h
  split at h
  · cases h
  · rename_i t _
    obtain ⟨d, hd, h⟩ := bindOk h
    obtain ⟨raw, hraw, h⟩ := bindOk h
    obtain ⟨v, _, h⟩ := bindOk h
    obtain ⟨ps, _, h⟩ := bindOk h
    obtain ⟨r, _, h⟩ := bindOk h
    have hl : l.metadata = raw.metadata := by cases h; rfl
    obtain ⟨_, _, hraw⟩ := bindOk hraw
    obtain ⟨_, _, hraw⟩ := bindOk hraw
    obtain ⟨_, _, hraw⟩ := bindOk hraw
    have hr : raw.metadata = d.metadata := by cases hraw; rfl
    rw [hl, hr]
    obtain ⟨_, _, hd⟩ := bindOk hd
    obtain ⟨_, _, hd⟩ := bindOk hd
    obtain ⟨_, _, hd⟩ := bindOk hd
    obtain ⟨m, hm, hd⟩ := bindOk hd
    obtain ⟨_, _, hd⟩ := bindOk hd
    have : d.metadata = m := by cases hd; rfl
    rw [this]
    unfold orDefault at hm
    split at hm
    · rename_i v _
      cases v with
      | table t =>
        obtain ⟨l', _, hm⟩ := bindOk hm
        cases hm
        exact inserted_ordered l' [] List.Pairwise.nil
      | _ => cases hm
    · cases hm
      exact List.Pairwise.nil

/-- C86: a lockfile that was read from any text and is well-formed is read again, unchanged, after it was written. -/
theorem C86_again (C : Codec) {T : TomlOut} (hT : WritesToml T) (s : Str) (l : Lockfile)
    (h : Lockfile.fromText C Toml.read s = .ok l) (hl : WellFormed C l) :
    Lockfile.fromText C Toml.read (l.text C T) = .ok l :=
  C86_round_trip C hT l (C86_ordered C _ s l h) hl

/-! ### The shape of the text -/

private theorem trimRev_past (x : Str) {c : Char} (hc : c ≠ '\n') (r : Str) :
    ∃ y, trimRev (x ++ '\n' :: c :: r) = y ++ '\n' :: c :: r := by
  induction x with
  | nil => exact ⟨[], trimRev_stop hc⟩
  | cons a x ih =>
    obtain ⟨y, hy⟩ := ih
    cases hx : x ++ '\n' :: c :: r with
    | nil => simp at hx
    | cons b z =>
      rw [List.cons_append, hx, trimRev]
      split
      · rw [← hx]
        exact ⟨y, hy⟩
      · rw [← hx]
        exact ⟨a :: x, rfl⟩

private theorem trimRev_newline (r : Str) : ∃ r', trimRev ('\n' :: r) = '\n' :: r' ∧ r'.head? ≠ some '\n' := by
  induction r with
  | nil => exact ⟨[], rfl, by simp⟩
  | cons d r ih =>
    rw [trimRev]
    split
    · rename_i h
      rw [h.2]
      exact ih
    · rename_i h
      exact ⟨d :: r, rfl, by simpa using h⟩

private theorem raw_newline {T : TomlOut} (hT : WritesToml T) (d : LockDoc) : ∃ u, rawText T d = u ++ ['\n'] := by
  rw [← flat_doc]
  have hne : docLines T d ≠ [] := by simp [docLines]
  obtain ⟨cs, c, hcs⟩ := List.eq_nil_or_concat (docLines T d) |>.resolve_left hne
  obtain ⟨u, hu, _⟩ := (good_doc hT d c (by rw [hcs]; simp)).2.last
  rw [hcs]
  exact ⟨cs.flatMap (·.1) ++ u, by simp [hu]⟩

/-- C86: the text starts with the marker line and the note, and ends with one newline. -/
theorem C86_shape {T : TomlOut} (hT : WritesToml T) (d : LockDoc) :
    lockMarker <+: d.text T ∧ ∃ u, d.text T = u ++ ['\n'] ∧ u.getLast? ≠ some '\n' := by
  have ht : d.text T = (trimRev (rawText T d).reverse).reverse := rfl
  constructor
  · have hraw : ∃ w, rawText T d = lockMarker.dropLast.dropLast ++ '.' :: '\n' :: w := ⟨_, rfl⟩
    obtain ⟨w, hw⟩ := hraw
    obtain ⟨y, hy⟩ := trimRev_past w.reverse (c := '.') (by decide) lockMarker.dropLast.dropLast.reverse
    refine ⟨y.reverse, ?_⟩
    rw [ht, hw, List.reverse_append, List.reverse_cons, List.reverse_cons, List.append_assoc, List.append_assoc]
    rw [show w.reverse ++ (['\n'] ++ (['.'] ++ lockMarker.dropLast.dropLast.reverse)) =
      w.reverse ++ '\n' :: '.' :: lockMarker.dropLast.dropLast.reverse from rfl, hy, List.reverse_append, List.reverse_cons,
      List.reverse_cons, List.reverse_reverse]
    rfl
  · obtain ⟨u, hu⟩ := raw_newline hT d
    obtain ⟨r', h1, h2⟩ := trimRev_newline u.reverse
    refine ⟨r'.reverse, ?_, ?_⟩
    · rw [ht, hu, List.reverse_append]
      show (trimRev ('\n' :: u.reverse)).reverse = _
      rw [h1]
      simp
    · rwa [List.getLast?_reverse]

end Verif.Props
