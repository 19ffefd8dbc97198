import Verif.Props.Sync
import Verif.Props.AssignerExamples

/-!
# C56: a library that meets `EditLaw`, runs, and violations
-/

namespace Verif.Props

open Verif.Adv Verif.Db Verif.Assign Verif.Sync Verif.Spec Verif.Lock

/-! ### A toy format of documents

Lines: the header, a tag that says which advisory it is, a line `a<ID>` for every alias, a line `r<ID>` for every
related ID, a dot. -/

/-- The lines that start with `c`, without it. -/
def pick (c : Char) (ls : List Str) : List Str :=
  ls.filterMap fun l => match l with
    | [] => none
    | x :: t => if x = c then some t else none

/-- An array that is there only if it is not empty. -/
def arrEntry (k : String) (l : List Str) : TomlTable := if l = [] then [] else [(k.toList, .arr (l.map .str))]

/-- The fixed values of an advisory. -/
def baseOf (id package : Str) : TomlTable :=
  [("id".toList, .str id), ("package".toList, .str package), ("date".toList, .str "2021-03-04".toList)]

/-- The table `[advisory]`. -/
def advTable (id package : Str) (al rel : List Str) : TomlTable :=
  baseOf id package ++ (arrEntry "aliases" al ++ arrEntry "related" rel)

/-- The advisories that the toy format knows. -/
def tagged (tag : Str) : Option (Str × Str) :=
  if tag = "one".toList then some ("RUSTSEC-2021-0001".toList, "foo".toList)
  else if tag = "two".toList then some ("RUSTSEC-2021-0002".toList, "bar".toList)
  else none

/-- The parser. -/
def syncToml (s : Str) : Option TomlTable :=
  match splitC '\n' s with
  | h :: tag :: rest =>
    if h = "[advisory]".toList then
      match tagged tag with
      | some (id, package) =>
        some [("advisory".toList, .table (advTable id package (pick 'a' rest) (pick 'r' rest))),
          ("versions".toList, .table [("patched".toList, .arr [])])]
      | none => none
    else none
  | _ => none

/-- The lines after an edit. -/
def editedLines (h tag : Str) (rest al rel : List Str) : List Str :=
  h :: tag :: ((if al = [] then pick 'a' rest else al).map ('a' :: ·) ++
    ((if rel = [] then pick 'r' rest else rel).map ('r' :: ·) ++ [".".toList]))

/-- The editor. -/
def syncEdit (s : Str) (al rel : List Str) : Str :=
  match splitC '\n' s with
  | h :: tag :: rest => joinC '\n' (editedLines h tag rest al rel) ++ ['\n']
  | _ => s ++ ['\n']

/-- The libraries. -/
def syncLib : SyncLib where
  adv := { assignLib with toml := syncToml }
  edit := syncEdit
  validName := fun s => !s.isEmpty
  known := fun s => decide (s = "foo".toList) || decide (s = "new".toList)

theorem pick_append (c : Char) (l l' : List Str) : pick c (l ++ l') = pick c l ++ pick c l' :=
  List.filterMap_append

theorem pick_same (c : Char) (l : List Str) : pick c (l.map (c :: ·)) = l := by
  unfold pick
  rw [List.filterMap_map]
  conv_rhs => rw [← List.filterMap_some (l := l)]
  congr 1
  funext t
  simp

theorem pick_other (c c' : Char) (h : c' ≠ c) (l : List Str) : pick c (l.map (c' :: ·)) = [] := by
  unfold pick
  rw [List.filterMap_map, List.filterMap_eq_nil_iff]
  intro t _
  simp [h]

theorem mem_pick {c : Char} {l : List Str} {t : Str} (h : t ∈ pick c l) : (c :: t) ∈ l := by
  obtain ⟨x, hx, e⟩ := List.mem_filterMap.mp h
  cases x with
  | nil => cases e
  | cons y u =>
    simp only at e
    split at e
    · rename_i hy; cases e; subst hy; exact hx
    · cases e

theorem pick_dot : pick 'a' [".".toList] = [] ∧ pick 'r' [".".toList] = [] := by decide

theorem lookup_arr (k k' : String) (l : List Str) (h : k'.toList ≠ k.toList) :
    (arrEntry k l).lookup k'.toList = none := by
  unfold arrEntry
  split
  · rfl
  · rw [List.lookup_cons]
    have : (k'.toList == k.toList) = false := by simpa using h
    rw [this]; rfl

theorem lookup_arr_self (k : String) (l : List Str) :
    (arrEntry k l).lookup k.toList = if l = [] then none else some (.arr (l.map .str)) := by
  unfold arrEntry
  split
  · rfl
  · rw [List.lookup_cons]; simp

theorem get_other (id package : Str) (al rel : List Str) (k : String) (h1 : k ≠ "aliases") (h2 : k ≠ "related") :
    TomlTable.get (advTable id package al rel) k = TomlTable.get (baseOf id package) k := by
  unfold TomlTable.get advTable
  rw [List.lookup_append, List.lookup_append, lookup_arr _ _ _ (fun e => h1 (String.toList_injective e)),
    lookup_arr _ _ _ (fun e => h2 (String.toList_injective e))]
  simp

theorem get_aliases (id package : Str) (al rel : List Str) :
    TomlTable.get (advTable id package al rel) "aliases" =
      if al = [] then none else some (.arr (al.map .str)) := by
  have h0 : List.lookup "aliases".toList (baseOf id package) = none := rfl
  unfold TomlTable.get advTable
  rw [List.lookup_append, List.lookup_append, h0, lookup_arr_self, lookup_arr "related" "aliases" rel (by decide)]
  simp

theorem get_related (id package : Str) (al rel : List Str) :
    TomlTable.get (advTable id package al rel) "related" =
      if rel = [] then none else some (.arr (rel.map .str)) := by
  have h0 : List.lookup "related".toList (baseOf id package) = none := rfl
  unfold TomlTable.get advTable
  rw [List.lookup_append, List.lookup_append, h0, lookup_arr_self, lookup_arr "aliases" "related" al (by decide)]
  simp

theorem joinC_getLast (ls : List Str) (s : Str) (c : Char) :
    (joinC '\n' (ls ++ [s ++ [c]])).getLast? = some c := by
  induction ls with
  | nil => simp [joinC]
  | cons l ls ih =>
    rw [List.cons_append, joinC_cons _ _ (by simp)]
    rw [List.getLast?_append, List.getLast?_cons, ih]
    simp

/-- The toy format meets the law. -/
theorem syncLib_law : EditLaw syncLib := by
  intro fm t m al rel _ ht hm hline
  change syncToml fm = some t at ht
  have hnl := not_mem_splitC '\n' fm
  unfold syncToml at ht
  split at ht
  case h_2 => cases ht
  rename_i h tag rest hs
  split at ht
  case isFalse => cases ht
  rename_i hh
  split at ht
  case h_2 => cases ht
  rename_i id package htag
  cases ht
  have hm' : m = advTable id package (pick 'a' rest) (pick 'r' rest) := by
    have : some (Toml.table (advTable id package (pick 'a' rest) (pick 'r' rest))) = some (Toml.table m) := hm
    cases this; rfl
  subst hm'
  rw [hs] at hnl
  -- the new lines
  have hA : ∀ s ∈ (if al = [] then pick 'a' rest else al), '\n' ∉ s := by
    intro s hs'
    split at hs'
    · intro hc
      exact hnl _ (List.mem_cons_of_mem _ (List.mem_cons_of_mem _ (mem_pick hs'))) (List.mem_cons_of_mem _ hc)
    · exact hline s (List.mem_append_left _ hs')
  have hR : ∀ s ∈ (if rel = [] then pick 'r' rest else rel), '\n' ∉ s := by
    intro s hs'
    split at hs'
    · intro hc
      exact hnl _ (List.mem_cons_of_mem _ (List.mem_cons_of_mem _ (mem_pick hs'))) (List.mem_cons_of_mem _ hc)
    · exact hline s (List.mem_append_right _ hs')
  have hlines : ∀ l ∈ editedLines h tag rest al rel, '\n' ∉ l ∧ ¬ "```".toList <+: l := by
    intro l hl
    unfold editedLines at hl
    simp only [List.mem_cons, List.mem_append, List.mem_map, List.not_mem_nil, or_false] at hl
    rcases hl with rfl | rfl | ⟨s, hs', rfl⟩ | ⟨s, hs', rfl⟩ | rfl
    · exact ⟨hnl _ List.mem_cons_self, by rw [hh]; decide⟩
    · refine ⟨hnl _ (List.mem_cons_of_mem _ List.mem_cons_self), ?_⟩
      unfold tagged at htag
      split at htag
      · rename_i e; rw [e]; decide
      · split at htag
        · rename_i e; rw [e]; decide
        · cases htag
    · refine ⟨?_, ?_⟩
      · have := hA s hs'
        simpa using this
      · rintro ⟨w, hw⟩
        cases hw
    · refine ⟨?_, ?_⟩
      · have := hR s hs'
        simpa using this
      · rintro ⟨w, hw⟩
        cases hw
    · exact ⟨by decide, by decide⟩
  have hsplit : splitC '\n' (joinC '\n' (editedLines h tag rest al rel)) = editedLines h tag rest al rel :=
    splitC_joinC (by simp [editedLines]) fun l hl => (hlines l hl).1
  have hform : editedLines h tag rest al rel = (h :: tag ::
      ((if al = [] then pick 'a' rest else al).map ('a' :: ·) ++
      (if rel = [] then pick 'r' rest else rel).map ('r' :: ·))) ++ [[] ++ ['.']] := by
    unfold editedLines
    simp
  refine ⟨joinC '\n' (editedLines h tag rest al rel),
    [("advisory".toList, .table (advTable id package (if al = [] then pick 'a' rest else al)
        (if rel = [] then pick 'r' rest else rel))),
      ("versions".toList, .table [("patched".toList, .arr [])])],
    advTable id package (if al = [] then pick 'a' rest else al) (if rel = [] then pick 'r' rest else rel),
    ?_, ⟨?_, ?_, ?_, ?_⟩, ?_, ?_, ?_, ?_, ?_, ?_⟩
  · show syncEdit fm al rel = _
    unfold syncEdit
    rw [hs]
  · rw [show editedLines h tag rest al rel = h :: (editedLines h tag rest al rel).tail from rfl,
      joinC_cons _ _ (by simp [editedLines]), hh]
    exact ⟨_, rfl⟩
  · intro l hl
    rw [hsplit] at hl
    exact (hlines l hl).2
  · intro c hc
    rw [hform, joinC_getLast] at hc
    cases hc
    decide
  · intro l hl
    rw [hsplit, hform, List.getLast?_append] at hl
    cases hl
    decide
  · show syncToml _ = some _
    unfold syncToml
    rw [hsplit]
    simp only [editedLines, hh, if_true, htag, pick_append, pick_same, pick_other _ _ (show 'r' ≠ 'a' by decide),
      pick_other _ _ (show 'a' ≠ 'r' by decide), pick_dot.1, pick_dot.2, List.append_nil, List.nil_append]
  · rfl
  · intro k hk
    have : (k.toList == "advisory".toList) = false := by
      simpa using fun e => hk (String.toList_injective e)
    unfold TomlTable.get
    simp only [List.lookup_cons, this]
  · intro k h1 h2
    rw [get_other _ _ _ _ _ h1 h2, get_other _ _ _ _ _ h1 h2]
  · rw [get_aliases, get_aliases, arrayAfter]
    by_cases e : al = [] <;> simp [e]
  · rw [get_related, get_related, arrayAfter]
    by_cases e : rel = [] <;> simp [e]

/-! ### Runs -/

/-- `SyncReady` holds, as a test, of the disk without regard to the database. -/
def editableB (L : AdvLib) (t : Str) : Bool :=
  match AdvisoryFile.fromStr L t, Parts.parse t with
  | .ok f, .ok parts =>
    ("[advisory]".toList.isPrefixOf parts.frontMatter) &&
    (match (splitC '\n' parts.frontMatter).getLast? with
     | none => true
     | some l => !(['#'].isPrefixOf (trimStart l))) &&
    (f.metadata.aliases ++ f.metadata.related).all fun i => !i.string.contains '\n'
  | _, _ => false

theorem editable_of {L : AdvLib} {t : Str} (h : editableB L t = true) : ∃ f, EditableFile L t f := by
  unfold editableB at h
  split at h
  case h_2 => cases h
  rename_i f parts hf hp
  simp only [Bool.and_eq_true, List.all_eq_true, Bool.not_eq_true', List.contains_eq_mem,
    decide_eq_false_iff_not] at h
  obtain ⟨⟨h1, h2⟩, h3⟩ := h
  refine ⟨f, hf, ?_, ?_, h3⟩
  · intro q hq
    rw [hp] at hq; cases hq
    exact List.isPrefixOf_iff_prefix.mp h1
  · intro q hq l hl
    rw [hp] at hq; cases hq
    rw [hl] at h2
    intro hc
    have := List.isPrefixOf_iff_prefix.mpr hc
    simp only at h2
    rw [this] at h2
    cases h2

/-- The database on the disk. -/
def dbOf (L : SyncLib) (d : Disk) : Option Database :=
  match d.open L.adv noSev with
  | .ok db => some db
  | _ => none

/-- The hypotheses of the C56 theorems, as a test. -/
def readyB (L : SyncLib) (d : Disk) : Bool :=
  match dbOf L d with
  | none => false
  | some db => (db.iter.all fun a => decide (a.metadata.id.kind = .rustSec)) && d.all fun f => editableB L.adv f.2

theorem ready_of {L : SyncLib} {d : Disk} (hn : (d.map Prod.fst).Nodup) (h : readyB L d = true) :
    ∃ db, SyncReady L noSev d db := by
  unfold readyB at h
  split at h
  · cases h
  rename_i db hdb
  unfold dbOf at hdb
  split at hdb
  case h_2 => cases hdb
  rename_i db' ho
  cases hdb
  simp only [Bool.and_eq_true, List.all_eq_true, decide_eq_true_eq] at h
  exact ⟨db, hn, ho, h.1, fun a _ t ht => editable_of (h.2 _ ht)⟩

/-- `PlainRecord`, as a test. -/
def plainB (o : OsvRecord) : Bool :=
  (o.aliases ++ [o.id]).all fun i => decide (Id.fromStr i.string = .ok i) && !i.string.contains '\n'

theorem plain_of {o : OsvRecord} (h : plainB o = true) : PlainRecord o := by
  unfold plainB at h
  intro i hi
  have := List.all_eq_true.mp h i hi
  simpa [PlainId] using this

/-- Two advisories; the second has an alias, which is not sorted before the new one. -/
def syncDisk : Disk :=
  [(fooFile "RUSTSEC-2021-0001.md", assignDoc "[advisory]\none\n.".toList),
   (⟨.crates, "bar".toList, "RUSTSEC-2021-0002.md".toList⟩,
     assignDoc "[advisory]\ntwo\naGHSA-z\nrr2\nrr1\n.".toList)]

/-- An ID. -/
def idOf (s : String) : Id :=
  match Id.fromStr s.toList with
  | .ok i => i
  | _ => Id.default

/-- A record. -/
def osvOf (id : String) (aliases : List String) (crates refs : List String) (withdrawn : Bool := false) :
    OsvRecord where
  id := idOf id
  aliases := aliases.map idOf
  withdrawn := withdrawn
  affected := crates.map fun c => ("crates.io".toList, c.toList)
  references := refs.map fun r => ("https://rustsec.org/advisories/" ++ r).toList

/-- What the examples look at: the disk, the number of updates, the IDs of the missing advisories. -/
def syncSummary (L : SyncLib) (d : Disk) (osv : List OsvRecord) : Outcome (Disk × Nat × List Str) :=
  match sync L noSev d osv with
  | .ok (s, missing) => .ok (s.disk, s.updated, missing.map fun o => o.id.string)
  | .err => .err
  | .panic => .panic

/-- Records: one refers to the first advisory, one is an alias of the second, one is new, one is withdrawn. -/
def syncOsv : List OsvRecord :=
  [osvOf "GHSA-a" ["CVE-2021-7"] ["foo", "other"] ["RUSTSEC-2021-0001.html"],
   osvOf "GHSA-z" ["CVE-2021-8", "OSV-1"] ["bar"] [],
   osvOf "GHSA-n" ["CVE-2021-9"] ["new", "new", "unknown"] [],
   osvOf "GHSA-w" [] ["new"] ["not an ID of an advisory"] true]

/-- The hypotheses of the C56 theorems hold of it. -/
theorem sync_example : EditLaw syncLib ∧ (∃ db, SyncReady syncLib noSev syncDisk db) ∧
    ∀ o ∈ syncOsv, PlainRecord o := by
  refine ⟨syncLib_law, ready_of ?_ ?_, fun o ho => plain_of ?_⟩
  · decide +kernel
  · decide +kernel
  · have : syncOsv.all plainB = true := by decide +kernel
    exact List.all_eq_true.mp this o ho

/-- The run adds three aliases to two files, and reports the new one. -/
example : syncSummary syncLib syncDisk syncOsv =
    .ok ([(fooFile "RUSTSEC-2021-0001.md", assignDoc "[advisory]\none\naCVE-2021-7\naGHSA-a\n.".toList),
      (⟨.crates, "bar".toList, "RUSTSEC-2021-0002.md".toList⟩,
        assignDoc "[advisory]\ntwo\naCVE-2021-8\naGHSA-z\nrr1\nrr2\n.".toList)], 2, ["GHSA-n".toList]) := by
  decide +kernel

/-! ### Violations -/

/-- Records of a chain of aliases: the first refers to the advisory and names the second, which names a CVE. -/
def chainOsv : List OsvRecord :=
  [osvOf "GHSA-a" ["GHSA-b"] ["foo"] ["RUSTSEC-2021-0001.html"],
   osvOf "GHSA-b" ["CVE-2021-9"] ["foo"] []]

/-- **C56, violation: not idempotent.**  Aliases are not followed transitively in one run: a second run on the
same records changes the database again, and the record that is reported as missing the first time is linked the
second time. -/
theorem C56_not_idempotent : ∃ (L : SyncLib) (d : Disk) (db : Database) (osv : List OsvRecord) (s s' : SyncState)
    (missing missing' : List OsvRecord), EditLaw L ∧ SyncReady L noSev d db ∧ (∀ o ∈ osv, PlainRecord o) ∧
      sync L noSev d osv = .ok (s, missing) ∧ sync L noSev s.disk osv = .ok (s', missing') ∧
      s'.disk ≠ s.disk ∧ s'.updated = 1 ∧ missing ≠ [] ∧ missing' = [] := by
  obtain ⟨db, hdb⟩ := sync_example.2.1
  have hall : chainOsv.all plainB = true := by decide +kernel
  have key : (match sync syncLib noSev syncDisk chainOsv with
      | .ok (s, missing) =>
        match sync syncLib noSev s.disk chainOsv with
        | .ok (s', missing') => !decide (s'.disk = s.disk) && (decide (s'.updated = 1) && (!decide (missing = []) &&
            decide (missing' = [])))
        | _ => false
      | _ => false) = true := by decide +kernel
  cases h : sync syncLib noSev syncDisk chainOsv with
  | err => rw [h] at key; cases key
  | panic => rw [h] at key; cases key
  | ok r =>
    obtain ⟨s, missing⟩ := r
    rw [h] at key
    simp only at key
    cases h' : sync syncLib noSev s.disk chainOsv with
    | err => rw [h'] at key; cases key
    | panic => rw [h'] at key; cases key
    | ok r' =>
      obtain ⟨s', missing'⟩ := r'
      rw [h'] at key
      simp only [Bool.and_eq_true, Bool.not_eq_true', decide_eq_false_iff_not, decide_eq_true_eq] at key
      exact ⟨syncLib, syncDisk, db, chainOsv, s, s', missing, missing', syncLib_law, hdb,
        fun o ho => plain_of (List.all_eq_true.mp hall o ho), h, h', key.1, key.2.1, key.2.2.1, key.2.2.2⟩

/-- The number of updates counts records, not advisories: two records for one advisory count two. -/
example : syncSummary syncLib syncDisk
    [osvOf "GHSA-a" [] ["foo"] ["RUSTSEC-2021-0001"], osvOf "GHSA-b" [] ["foo"] ["RUSTSEC-2021-0001"]] =
    .ok ([(fooFile "RUSTSEC-2021-0001.md", assignDoc "[advisory]\none\naGHSA-a\naGHSA-b\n.".toList),
      (⟨.crates, "bar".toList, "RUSTSEC-2021-0002.md".toList⟩,
        assignDoc "[advisory]\ntwo\naGHSA-z\nrr2\nrr1\n.".toList)], 2, []) := by
  decide +kernel

/-- A reference to an advisory with a number of five digits is taken to be another advisory's: the alias is added
to `RUSTSEC-2021-0001`. -/
example : RefersTo (osvOf "GHSA-a" [] ["foo"] ["RUSTSEC-2021-00015.html"]) (idOf "RUSTSEC-2021-0001") ∧
    syncSummary syncLib syncDisk [osvOf "GHSA-a" [] ["foo"] ["RUSTSEC-2021-00015.html"]] =
    .ok ([(fooFile "RUSTSEC-2021-0001.md", assignDoc "[advisory]\none\naGHSA-a\n.".toList),
      (⟨.crates, "bar".toList, "RUSTSEC-2021-0002.md".toList⟩,
        assignDoc "[advisory]\ntwo\naGHSA-z\nrr2\nrr1\n.".toList)], 1, []) := by
  refine ⟨⟨_, List.mem_cons_self, "RUSTSEC-2021-00015.html".toList, ?_, ?_, ?_⟩, ?_⟩ <;> decide +kernel

/-- A record that refers to an advisory that is not in the database (a new one, or one of another checkout), or to
a page that is not an advisory, makes `sync` panic. -/
example : syncSummary syncLib syncDisk [osvOf "GHSA-a" [] ["foo"] ["RUSTSEC-2021-0003.html"]] = .panic ∧
    syncSummary syncLib syncDisk [osvOf "GHSA-a" [] ["foo"] ["index.html"]] = .panic := by
  refine ⟨?_, ?_⟩ <;> decide +kernel

end Verif.Props
