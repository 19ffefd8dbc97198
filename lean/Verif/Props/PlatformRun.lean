import Verif.Props.PlatformDoc
import Verif.Model.PlatformNames
import Verif.Props.AdvisoryDecode
import Verif.Props.LinterGate

/-!
# C76: a run of the generator, and the tables in the repository
-/

namespace Verif.Props

open Verif.PlatGen Verif.Spec Verif.Adv

/-! ### `rustc --print=cfg` -/

theorem flatten_splitC (c : Char) (s : Str) : (splitC c s).flatten = s.filter (· ≠ c) := by
  induction s with
  | nil => rfl
  | cons x s ih =>
    by_cases h : x = c
    · subst h
      have : splitC x (x :: s) = [] :: splitC x s := splitC_append_gen x [] s
      rw [this, List.flatten_cons, List.nil_append, ih, List.filter_cons_of_neg (by simp)]
    · obtain ⟨a, r, hs⟩ := List.exists_cons_of_ne_nil (splitC_ne_nil c s)
      have : splitC c (x :: s) = (x :: a) :: r := by
        have h1 : (x == c) = false := by simpa using h
        simp [splitC, h1, h, hs]
      rw [this, List.filter_cons_of_pos (by simpa using h), ← ih, hs]
      rfl

theorem splitC_first (k rest : Str) (hk : '=' ∉ k) : splitC '=' (k ++ '=' :: rest) = k :: splitC '=' rest :=
  splitC_append hk rest

/-- **C76, a line of `rustc --print=cfg`.**  A line without `=` is passed over.  In another one the key is what stands
before the first `=`; if what follows, with every other `=` taken out, stands between quotes, that is the value, and
otherwise the generator panics. -/
theorem C76_line (line : Str) :
    ('=' ∉ line → parseLine line = .ok none) ∧
    ∀ k rest, line = k ++ '=' :: rest → '=' ∉ k →
      (∀ v, rest.filter (· ≠ '=') = '"' :: v ++ ['"'] → parseLine line = .ok (some (k, v))) ∧
      ((∀ v, rest.filter (· ≠ '=') ≠ '"' :: v ++ ['"']) → parseLine line = .panic) := by
  constructor
  · intro h
    unfold parseLine
    rw [splitC_of_not_mem h]
  · intro k rest hl hk
    obtain ⟨a, r, hs⟩ := List.exists_cons_of_ne_nil (splitC_ne_nil '=' rest)
    have hval := flatten_splitC '=' rest
    rw [hs] at hval
    constructor
    · intro v hv
      rw [hl]
      unfold parseLine
      rw [splitC_first k rest hk, hs]
      simp only
      rw [hval, hv]
      simp
    · intro hno
      rw [hl]
      unfold parseLine
      rw [splitC_first k rest hk, hs]
      simp only
      rw [hval]
      generalize rest.filter (· ≠ '=') = val at hno
      cases hr : val.reverse with
      | nil => rfl
      | cons last front =>
        simp only
        split
        · rfl
        · next hlast =>
          cases hf : front.reverse with
          | nil => rfl
          | cons first inner =>
            simp only
            split
            · rfl
            · next hfirst =>
              exfalso
              apply hno inner
              have h1 : val = front.reverse ++ [last] := by
                have := congrArg List.reverse hr
                simpa using this
              rw [h1, hf, not_not.mp hlast, not_not.mp hfirst]

/-- What a plain line gives. -/
def cfgEntry : CfgLine → Option (Str × Str)
  | .flag _ => none
  | .pair k v => some (k, v)

theorem parseLine_plain (l : CfgLine) (h : l.Plain) : parseLine l.text = .ok (cfgEntry l) := by
  cases l with
  | flag s => exact (C76_line s).1 h
  | pair k v =>
    refine ((C76_line _).2 k ('"' :: v ++ ['"']) (by simp [CfgLine.text]) h.1).1 v ?_
    rw [List.filter_eq_self]
    intro c hc
    rcases List.mem_append.mp hc with hc | hc
    · rcases List.mem_cons.mp hc with rfl | hc
      · decide
      · have : c ≠ '=' := fun he => h.2 (he ▸ hc)
        simpa using this
    · rw [List.mem_singleton.mp hc]; decide

/-- **C76, what `rustc` says.**  If the lines have no `=` but the one after the key, reading succeeds, and the value of a key
is the last one given. -/
theorem C76_info (ls : List CfgLine) (h : ∀ l ∈ ls, l.Plain) :
    ∃ m, parseInfo (ls.map CfgLine.text) = .ok m ∧ ∀ key, getKey m key = lastValue key ls := by
  have hm : ∀ ls : List CfgLine, (∀ l ∈ ls, l.Plain) → Outcome.mapList parseLine (ls.map CfgLine.text) =
      .ok (ls.map cfgEntry) := by
    intro ls hls
    rw [mapList_iff, List.forall₂_map_left_iff, List.forall₂_map_right_iff, List.forall₂_same]
    exact fun l hl => parseLine_plain l (hls l hl)
  unfold parseInfo
  rw [hm ls h]
  refine ⟨_, rfl, ?_⟩
  intro key
  clear h hm
  unfold getKey
  induction ls with
  | nil => rfl
  | cons l ls ih =>
    rw [List.map_cons]
    cases l with
    | flag s =>
      have h0 : (cfgEntry (.flag s) :: ls.map cfgEntry).filterMap id = (ls.map cfgEntry).filterMap id := rfl
      rw [h0, ih]
      conv_rhs => unfold lastValue
      cases lastValue key ls <;> rfl
    | pair k v =>
      have h0 : (cfgEntry (.pair k v) :: ls.map cfgEntry).filterMap id = (k, v) :: (ls.map cfgEntry).filterMap id := rfl
      rw [h0, List.reverse_cons, List.lookup_append, ih]
      conv_rhs => unfold lastValue
      cases lastValue key ls with
      | some x => rfl
      | none =>
        rw [Option.none_or, List.lookup_cons]
        by_cases hk : key = k
        · subst hk
          rw [beq_self_eq_true]
          simp
        · rw [beq_false_of_ne hk]
          simp only [if_neg fun h => hk (Eq.symm h)]
          rfl

example : ∃ m, parseInfo ["unix".toList, "target_arch=\"x86_64\"".toList, "target_has_atomic=\"8\"".toList,
    "target_has_atomic=\"ptr\"".toList] = .ok m ∧ getKey m "target_has_atomic".toList = some "ptr".toList := by
  refine ⟨_, rfl, ?_⟩
  decide +kernel

/-- **C76, violation.**  An `=` in a value gets lost, and two different values become one. -/
theorem C76_value_lost :
    parseLine "k=\"a=b\"".toList = .ok (some ("k".toList, "ab".toList)) ∧
    parseLine "k=\"ab\"".toList = .ok (some ("k".toList, "ab".toList)) := ⟨rfl, rfl⟩

/-! ### The run -/

theorem enumName_ok (f : EnumField) (hf : f ∈ enumFields) : enumName f.key = .ok f.name ∧ enumPath f.key = f.path := by
  simp only [enumFields, List.mem_cons, List.not_mem_nil, or_false] at hf
  rcases hf with rfl | rfl | rfl | rfl | rfl <;> exact ⟨rfl, rfl⟩

theorem fields_eq : fields = enumFields.map (·.key) := rfl

theorem linesText_append (a b : List Str) : linesText (a ++ b) = linesText a ++ linesText b := by
  simp [linesText]

theorem linesText_cons (a : Str) (b : List Str) : linesText (a :: b) = line a ++ linesText b := by
  simp [linesText, line]

theorem linesText_nil : linesText [] = [] := rfl

theorem variantLines_ok (comment : Str → Option Str) (raw : Str) (h : variantName raw ≠ []) :
    variantLines comment raw = .ok (linesText (variantBlock (comment raw) raw (variantName raw))) := by
  unfold variantLines variantBlock
  cases hv : variantName raw with
  | nil => exact absurd hv h
  | cons c n =>
    simp only [List.head?_cons, Option.any_some]
    congr 1
    have h1 : line (variantDoc raw (comment raw)) = linesText [("    /// `".toList ++ raw ++ "`".toList) ++
        (match comment raw with | some c => ": ".toList ++ c | none => [])] := by
      rw [linesText_cons, linesText_nil, List.append_nil]
      unfold variantDoc
      cases comment raw with
      | none => simp only [List.append_nil]
      | some x =>
        simp only
        have : "`: ".toList = "`".toList ++ ": ".toList := rfl
        rw [this]
        simp only [List.append_assoc]
    have h2 : (if c.isLower = true then line "    #[allow(non_camel_case_types)]".toList else []) =
        linesText (if c.isLower = true then ["    #[allow(non_camel_case_types)]".toList] else []) := by
      by_cases hc : c.isLower = true
      · rw [if_pos hc, if_pos hc, linesText_cons, linesText_nil, List.append_nil]
      · rw [if_neg hc, if_neg hc, linesText_nil]
    rw [h1, h2, linesText_append, linesText_append, List.append_assoc _ (line _) (line [])]
    congr 1

theorem enumDefinition_ok (comment : Str → Option Str) (f : EnumField) (hf : f ∈ enumFields) (values : List Str)
    (h : ∀ v ∈ values, variantName v ≠ []) :
    enumDefinition comment f.key values = .ok (linesText (["pub enum ".toList ++ f.name ++ " {".toList] ++
      (values.map fun v => (v, variantName v)).flatMap (fun v => variantBlock (comment v.1) v.1 v.2) ++ ["}".toList])) := by
  have hm : Outcome.mapList (variantLines comment) values =
      .ok (values.map fun v => linesText (variantBlock (comment v) v (variantName v))) := by
    rw [mapList_iff, List.forall₂_map_right_iff, List.forall₂_same]
    exact fun v hv => variantLines_ok comment v (h v hv)
  unfold enumDefinition
  rw [(enumName_ok f hf).1, Outcome.bind_ok, hm, Outcome.bind_ok]
  congr 1
  rw [linesText_append, linesText_append, linesText_cons, linesText_nil, linesText_cons, linesText_nil, List.append_nil,
    List.append_nil]
  congr 2
  rw [List.flatMap_map]
  clear h hm
  induction values with
  | nil => rfl
  | cons v vs ih => rw [List.map_cons, List.flatten_cons, ih, List.flatMap_cons, linesText_append]

theorem linesText_map {α : Type} (f : α → Str) (l : List α) : linesText (l.map f) = (l.map fun x => line (f x)).flatten := by
  unfold linesText line
  rw [List.map_map]
  rfl

/-- The text of an enum file. -/
theorem enumText_ok (comment : Str → Option Str) (f : EnumField) (hf : f ∈ enumFields) (values : List Str)
    (h : ∀ v ∈ values, variantName v ≠ []) :
    ∃ a b, enumDefinition comment f.key values = .ok a ∧ enumConversions f.key values = .ok b ∧
      a ++ b = linesText (enumLines f.name f.key comment (values.map fun v => (v, variantName v))) := by
  have hc : ∃ b, enumConversions f.key values = .ok b := by
    unfold enumConversions
    rw [(enumName_ok f hf).1, Outcome.bind_ok]
    exact ⟨_, rfl⟩
  obtain ⟨b, hb⟩ := hc
  refine ⟨_, b, enumDefinition_ok comment f hf values h, hb, ?_⟩
  · unfold enumConversions at hb
    rw [(enumName_ok f hf).1, Outcome.bind_ok] at hb
    rw [← Outcome.ok.inj hb]
    unfold enumLines
    simp only [linesText_append, linesText_cons, linesText_nil, List.append_nil, List.map_map, List.append_assoc,
      linesText_map, Function.comp_def]

theorem distinctValues_ok (key : Str) (infos : List (List (Str × Str))) (h : ∀ i ∈ infos, ∃ v, getKey i key = some v) :
    ∃ vs, distinctValues key infos = .ok vs ∧ vs.Pairwise (fun a b => Lock.strCmp a b = .lt) ∧
      ∀ v, v ∈ vs ↔ ∃ i ∈ infos, getKey i key = some v := by
  have hm : ∃ r, Outcome.mapList (valueOf key) infos = .ok r := by
    rw [mapList_total]
    intro i hi
    obtain ⟨v, hv⟩ := h i hi
    exact ⟨v, by unfold valueOf; rw [hv]⟩
  obtain ⟨r, hr⟩ := hm
  refine ⟨Sync.sortDedup Lock.strCmp r, ?_, sortDedup_sorted _ strCmp_eq_iff r, ?_⟩
  · unfold distinctValues
    rw [hr, Outcome.bind_ok]
  · intro v
    rw [mem_sortDedup strCmp_eq_iff]
    have hF := (mapList_iff _ _ _).mp hr
    clear h hr
    induction hF with
    | nil => simp
    | cons hxy _ ih =>
      rename_i x y l r _
      refine List.mem_cons.trans ?_
      refine (or_congr Iff.rfl ih).trans ?_
      have hy : getKey x key = some y := by
        unfold valueOf at hxy
        cases hg : getKey x key with
        | none => rw [hg] at hxy; cases hxy
        | some v => rw [hg] at hxy; cases hxy; rfl
      constructor
      · rintro (rfl | ⟨i, hi, hv⟩)
        · exact ⟨x, List.mem_cons_self, hy⟩
        · exact ⟨i, List.mem_cons_of_mem _ hi, hv⟩
      · rintro ⟨i, hi, hv⟩
        rcases List.mem_cons.mp hi with rfl | hi
        · rw [hy] at hv; exact Or.inl (Option.some.inj hv).symm
        · exact Or.inr ⟨i, hi, hv⟩

theorem distinctValues_total (key : Str) (infos : List (List (Str × Str))) (vs : List Str)
    (h : distinctValues key infos = .ok vs) : ∀ i ∈ infos, ∃ v, getKey i key = some v := by
  unfold distinctValues at h
  obtain ⟨r, hr, _⟩ := bindOk h
  have := (mapList_total infos).mp ⟨r, hr⟩
  intro i hi
  obtain ⟨y, hy⟩ := this i hi
  unfold valueOf at hy
  cases hg : getKey i key with
  | none => rw [hg] at hy; cases hy
  | some v => exact ⟨v, rfl⟩

/-- What a run must find. -/
structure Describable (W : GenWorld) (doc : List (Str × DocInfo)) (infos : List (List (Str × Str))) : Prop where
  same : ∀ t, t ∈ W.triples ↔ ∃ d, doc.lookup t = some d
  cfg : List.Forall₂ (fun t i => ∃ lines, W.cfg t = some lines ∧ parseInfo lines = .ok i) W.triples infos
  keys : ∀ i ∈ infos, ∀ f ∈ enumFields, ∃ v, getKey i f.key = some v ∧ variantName v ≠ []
  tiers : ∀ t ∈ W.triples, ∀ d, doc.lookup t = some d → d.tier = 1 ∨ d.tier = 2 ∨ d.tier = 3

/-- What the files say. -/
structure Describing (W : GenWorld) (doc : List (Str × DocInfo)) (infos : List (List (Str × Str)))
    (values : EnumField → List Str) (blocks : List Str) : Prop where
  /-- the values of an enum are those of the targets, each once, in order -/
  ascending : ∀ f ∈ enumFields, (values f).Pairwise fun a b => Lock.strCmp a b = .lt
  complete : ∀ f ∈ enumFields, ∀ v, v ∈ values f ↔ ∃ i ∈ infos, getKey i f.key = some v
  /-- every platform has the values `rustc` gave and the tier and notes of the documentation -/
  platforms : List.Forall₂ (fun (x : Str × List (Str × Str)) block => ∃ arch os env endian width d tier,
      getKey x.2 "target_arch".toList = some arch ∧ getKey x.2 "target_os".toList = some os ∧
      getKey x.2 "target_env".toList = some env ∧ getKey x.2 "target_endian".toList = some endian ∧
      getKey x.2 "target_pointer_width".toList = some width ∧ doc.lookup x.1 = some d ∧ tierWord d.tier = some tier ∧
      block = linesText (platformLines d.notes (constName x.1) x.1 (variantName arch) (variantName os) (variantName env)
        (variantName endian) (variantName width) tier)) (W.triples.zip infos) blocks

/-- The files. -/
def describedFiles (W : GenWorld) (values : EnumField → List Str) (blocks : List Str) : List (Str × Str) :=
  (enumFields.map fun f => (f.path, W.header f.key ++
    linesText (enumLines f.name f.key W.comment ((values f).map fun v => (v, variantName v))) ++ W.footer f.key)) ++
  [("src/platform/platforms.rs".toList, W.fileHeader ++ linesText (allLines (W.triples.map constName)) ++ blocks.flatten)]

theorem tierName_ok (n : Nat) (w : Str) : tierName n = .ok ("Tier::".toList ++ w) ↔ tierWord n = some w := by
  unfold tierName tierWord
  by_cases h1 : n = 1
  · subst h1
    constructor
    · intro h
      have : "Tier::One".toList = "Tier::".toList ++ w := Outcome.ok.inj h
      have h2 : "Tier::One".toList = "Tier::".toList ++ "One".toList := rfl
      rw [h2] at this
      rw [← List.append_cancel_left this]; rfl
    · intro h
      have : "One".toList = w := Option.some.inj h
      rw [← this]; rfl
  by_cases h2 : n = 2
  · subst h2
    constructor
    · intro h
      have : "Tier::Two".toList = "Tier::".toList ++ w := Outcome.ok.inj h
      have h2 : "Tier::Two".toList = "Tier::".toList ++ "Two".toList := rfl
      rw [h2] at this
      rw [← List.append_cancel_left this]; rfl
    · intro h
      have : "Two".toList = w := Option.some.inj h
      rw [← this]; rfl
  by_cases h3 : n = 3
  · subst h3
    constructor
    · intro h
      have : "Tier::Three".toList = "Tier::".toList ++ w := Outcome.ok.inj h
      have h2 : "Tier::Three".toList = "Tier::".toList ++ "Three".toList := rfl
      rw [h2] at this
      rw [← List.append_cancel_left this]; rfl
    · intro h
      have : "Three".toList = w := Option.some.inj h
      rw [← this]; rfl
  · rw [if_neg h1, if_neg h2, if_neg h3]
    constructor
    · nofun
    · intro h
      rw [List.lookup_cons, beq_false_of_ne h1, List.lookup_cons, beq_false_of_ne h2, List.lookup_cons, beq_false_of_ne h3] at h
      cases h

theorem fieldLine_ok (i : List (Str × Str)) (f : EnumField) (hf : f ∈ enumFields) (v : Str) (h : getKey i f.key = some v) :
    fieldLine i f.key = .ok (line ("    ".toList ++ f.key ++ ": ".toList ++ f.name ++ "::".toList ++ variantName v ++ ",".toList)) := by
  unfold fieldLine
  rw [h]
  simp only
  rw [(enumName_ok f hf).1, Outcome.bind_ok]

theorem targetStruct_ok (triple : Str) (i : List (Str × Str)) (d : DocInfo) (arch os env endian width tier : Str)
    (h1 : getKey i "target_arch".toList = some arch) (h2 : getKey i "target_os".toList = some os)
    (h3 : getKey i "target_env".toList = some env) (h4 : getKey i "target_endian".toList = some endian)
    (h5 : getKey i "target_pointer_width".toList = some width) (ht : tierWord d.tier = some tier) :
    targetStruct triple i d = .ok (linesText (platformLines d.notes (constName triple) triple (variantName arch)
      (variantName os) (variantName env) (variantName endian) (variantName width) tier)) := by
  have e1 := fieldLine_ok i ⟨"target_arch".toList, "Arch".toList, "src/target/arch.rs".toList⟩ (by simp [enumFields]) arch h1
  have e2 := fieldLine_ok i ⟨"target_os".toList, "Os".toList, "src/target/os.rs".toList⟩ (by simp [enumFields]) os h2
  have e3 := fieldLine_ok i ⟨"target_env".toList, "Env".toList, "src/target/env.rs".toList⟩ (by simp [enumFields]) env h3
  have e4 := fieldLine_ok i ⟨"target_endian".toList, "Endian".toList, "src/target/endian.rs".toList⟩ (by simp [enumFields]) endian h4
  have e5 := fieldLine_ok i ⟨"target_pointer_width".toList, "PointerWidth".toList, "src/target/pointer_width.rs".toList⟩
    (by simp [enumFields]) width h5
  simp only at e1 e2 e3 e4 e5
  unfold targetStruct
  have hm : Outcome.mapList (fieldLine i) fields = .ok [_, _, _, _, _] :=
    (mapList_iff _ _ _).mpr (.cons e1 (.cons e2 (.cons e3 (.cons e4 (.cons e5 .nil)))))
  rw [hm, Outcome.bind_ok, (tierName_ok d.tier tier).mpr ht, Outcome.bind_ok]
  congr 1
  unfold platformLines
  simp only [linesText_append, linesText_cons, linesText_nil, List.append_nil, List.flatten_cons, List.flatten_nil,
    List.append_assoc]
  have hnotes : ∀ x : Str, (if d.notes.isEmpty = true then [] else "\n/// ".toList ++ d.notes) ++ (line [] ++ x) =
      linesText (if d.notes = [] then [[]] else [[], "/// ".toList ++ d.notes]) ++ x := by
    intro x
    cases d.notes with
    | nil => rfl
    | cons c n =>
      rw [if_neg (by simp), if_neg (by simp), linesText_cons, linesText_cons, linesText_nil]
      unfold line
      simp only [List.nil_append, List.append_nil, List.append_assoc]
      rfl
  rw [hnotes]
  rfl

theorem agree_iff (triples : List Str) (doc : List (Str × DocInfo)) :
    agree triples doc = true ↔ ∀ t, t ∈ triples ↔ ∃ d, doc.lookup t = some d := by
  unfold agree
  rw [Bool.and_eq_true, List.all_eq_true, List.all_eq_true]
  have hmem : ∀ t, (∃ d, doc.lookup t = some d) ↔ ∃ d, (t, d) ∈ doc := by
    intro t
    constructor
    · rintro ⟨d, h⟩; exact ⟨d, lookup_mem_pair h⟩
    · rintro ⟨d, h⟩
      cases hl : doc.lookup t with
      | some i => exact ⟨i, rfl⟩
      | none =>
        rw [List.lookup_eq_none_iff] at hl
        have := hl _ h
        simp at this
  constructor
  · rintro ⟨h1, h2⟩ t
    rw [hmem]
    constructor
    · intro ht
      have := h1 t ht
      rw [Option.isSome_iff_exists] at this
      exact (hmem t).mp this
    · rintro ⟨d, hd⟩
      have := h2 _ hd
      simpa using this
  · intro h
    constructor
    · intro t ht
      rw [Option.isSome_iff_exists]
      exact (h t).mp ht
    · rintro ⟨t, d⟩ hd
      have : t ∈ triples := (h t).mpr ((hmem t).mpr ⟨d, hd⟩)
      simpa using this

theorem enumOutput_ok (W : GenWorld) (infos : List (List (Str × Str))) (f : EnumField) (hf : f ∈ enumFields)
    (hk : ∀ i ∈ infos, ∃ v, getKey i f.key = some v ∧ variantName v ≠ []) :
    ∃ values : List Str, values.Pairwise (fun a b => Lock.strCmp a b = .lt) ∧
      (∀ v, v ∈ values ↔ ∃ i ∈ infos, getKey i f.key = some v) ∧
      enumOutput W infos f.key = .ok (f.path, W.header f.key ++
        linesText (enumLines f.name f.key W.comment (values.map fun v => (v, variantName v))) ++ W.footer f.key) := by
  obtain ⟨vs, hvs, hsorted, hmem⟩ := distinctValues_ok f.key infos fun i hi => (hk i hi).imp fun _ h => h.1
  have hne : ∀ v ∈ vs, variantName v ≠ [] := by
    intro v hv
    obtain ⟨i, hi, hg⟩ := (hmem v).mp hv
    obtain ⟨v', hv', hn⟩ := hk i hi
    rw [hg] at hv'
    rw [Option.some.inj hv']
    exact hn
  obtain ⟨a, b, ha, hb, hab⟩ := enumText_ok W.comment f hf vs hne
  refine ⟨vs, hsorted, hmem, ?_⟩
  unfold enumOutput enumFile
  rw [hvs, Outcome.bind_ok, ha, Outcome.bind_ok, hb, Outcome.bind_ok, Outcome.bind_ok, (enumName_ok f hf).2, ← hab]
  simp only [List.append_assoc]

theorem enumOutput_keys (W : GenWorld) (infos : List (List (Str × Str))) (key : Str) (x : Str × Str)
    (h : enumOutput W infos key = .ok x) : ∀ i ∈ infos, ∃ v, getKey i key = some v ∧ variantName v ≠ [] := by
  unfold enumOutput at h
  obtain ⟨text, ht, _⟩ := bindOk h
  unfold enumFile at ht
  obtain ⟨vs, hvs, ht⟩ := bindOk ht
  obtain ⟨de, hde, _⟩ := bindOk ht
  have htot := distinctValues_total key infos vs hvs
  obtain ⟨vs', hvs', _, hmem⟩ := distinctValues_ok key infos htot
  rw [hvs] at hvs'
  cases hvs'
  intro i hi
  obtain ⟨v, hv⟩ := htot i hi
  refine ⟨v, hv, ?_⟩
  have hin := (hmem v).mpr ⟨i, hi, hv⟩
  unfold enumDefinition at hde
  obtain ⟨name, _, hde⟩ := bindOk hde
  obtain ⟨ls, hls, _⟩ := bindOk hde
  obtain ⟨y, hy⟩ := (mapList_total vs).mp ⟨ls, hls⟩ v hin
  intro h0
  unfold variantLines at hy
  rw [h0] at hy
  cases hy

theorem targetList_eq (triples : List Str) : targetList triples = linesText (allLines (triples.map constName)) := by
  unfold targetList allLines
  simp only [linesText_append, linesText_cons, linesText_nil, List.append_nil, List.map_map, linesText_map,
    Function.comp_def, List.append_assoc]

/-- The conditions are sufficient, and the files are those described. -/
theorem generate_of (W : GenWorld) (doc : List (Str × DocInfo)) (infos : List (List (Str × Str)))
    (hd : parseDoc W.doc = .ok doc) (h : Describable W doc infos) :
    ∃ values blocks, Describing W doc infos values blocks ∧ generate W = .ok (describedFiles W values blocks) := by
  have hinfo : targetsInfo W = .ok infos := by
    unfold targetsInfo
    rw [mapList_iff]
    refine h.cfg.imp fun t i => ?_
    rintro ⟨lines, h1, h2⟩
    unfold targetInfo
    rw [h1]
    exact h2
  -- the enums
  have henum : ∀ f : EnumField, ∃ values : List Str, f ∈ enumFields → values.Pairwise (fun a b => Lock.strCmp a b = .lt) ∧
      (∀ v, v ∈ values ↔ ∃ i ∈ infos, getKey i f.key = some v) ∧
      enumOutput W infos f.key = .ok (f.path, W.header f.key ++
        linesText (enumLines f.name f.key W.comment (values.map fun v => (v, variantName v))) ++ W.footer f.key) := by
    intro f
    by_cases hf : f ∈ enumFields
    · obtain ⟨vs, hvs⟩ := enumOutput_ok W infos f hf fun i hi => h.keys i hi f hf
      exact ⟨vs, fun _ => hvs⟩
    · exact ⟨[], fun hf' => absurd hf' hf⟩
  choose values hvalues using henum
  have hlen : W.triples.length = infos.length := h.cfg.length_eq
  -- the platforms
  have hplat : ∀ x ∈ W.triples.zip infos, ∃ block, targetBlock doc x = .ok block ∧ ∃ arch os env endian width d tier,
      getKey x.2 "target_arch".toList = some arch ∧ getKey x.2 "target_os".toList = some os ∧
      getKey x.2 "target_env".toList = some env ∧ getKey x.2 "target_endian".toList = some endian ∧
      getKey x.2 "target_pointer_width".toList = some width ∧ doc.lookup x.1 = some d ∧ tierWord d.tier = some tier ∧
      block = linesText (platformLines d.notes (constName x.1) x.1 (variantName arch) (variantName os) (variantName env)
        (variantName endian) (variantName width) tier) := by
    rintro ⟨t, i⟩ hx
    have ht := (List.of_mem_zip hx).1
    have hi := (List.of_mem_zip hx).2
    have hk := h.keys i hi
    simp only [enumFields, List.forall_mem_cons, List.not_mem_nil, false_implies, implies_true, and_true] at hk
    obtain ⟨⟨arch, h1, _⟩, ⟨os, h2, _⟩, ⟨env, h3, _⟩, ⟨endian, h4, _⟩, ⟨width, h5, _⟩⟩ := hk
    obtain ⟨d, hdl⟩ := (h.same t).mp ht
    have htw : ∃ w, tierWord d.tier = some w := by
      rcases h.tiers t ht d hdl with h | h | h <;> rw [h] <;> exact ⟨_, rfl⟩
    obtain ⟨w, hw⟩ := htw
    refine ⟨_, ?_, arch, os, env, endian, width, d, w, h1, h2, h3, h4, h5, hdl, hw, rfl⟩
    unfold targetBlock
    simp only [hdl]
    exact targetStruct_ok t i d arch os env endian width w h1 h2 h3 h4 h5 hw
  obtain ⟨blocks, hblocks⟩ := (mapList_total (f := targetBlock doc) (W.triples.zip infos)).mpr
    fun x hx => (hplat x hx).imp fun _ h => h.1
  refine ⟨values, blocks, ⟨fun f hf => (hvalues f hf).1, fun f hf => (hvalues f hf).2.1, ?_⟩, ?_⟩
  · have hF := (mapList_iff _ _ _).mp hblocks
    clear hblocks
    generalize W.triples.zip infos = l at hF hplat
    induction hF with
    | nil => exact .nil
    | cons hxy _ ih =>
      rename_i x y l r _
      refine .cons ?_ (ih fun x hx => hplat x (List.mem_cons_of_mem _ hx))
      obtain ⟨b, hb, hrest⟩ := hplat x List.mem_cons_self
      rw [hxy] at hb
      cases hb
      exact hrest
  · unfold generate
    rw [hd, Outcome.bind_ok, (agree_iff _ _).mpr h.same, hinfo]
    have he : Outcome.mapList (enumOutput W infos) fields = .ok (enumFields.map fun f => (f.path, W.header f.key ++
        linesText (enumLines f.name f.key W.comment ((values f).map fun v => (v, variantName v))) ++ W.footer f.key)) := by
      rw [mapList_iff, fields_eq, List.forall₂_map_left_iff, List.forall₂_map_right_iff, List.forall₂_same]
      exact fun f hf => (hvalues f hf).2.2
    have ht : targetsFile W infos doc = .ok (W.fileHeader ++ linesText (allLines (W.triples.map constName)) ++ blocks.flatten) := by
      unfold targetsFile
      rw [hblocks, Outcome.bind_ok, targetList_eq]
    rw [if_neg (by decide), Outcome.bind_ok, he, Outcome.bind_ok, ht, Outcome.bind_ok]
    rfl

/-- **C76, a run.**  The generator succeeds exactly if the documentation and `rustc` know the same triples, `rustc` describes
each of them with all of the five keys, and the tiers are 1, 2 or 3.  It then writes the five enums and the platforms: the
variants of an enum are the values of the platforms, each once and in order; every platform has a constant with the values
`rustc` gave, which are all variants of the enums, with the tier and the notes of the documentation; `ALL` lists the
constants in the order of `rustc`. -/
theorem C76_generate (W : GenWorld) :
    ((∃ files, generate W = .ok files) ↔ ∃ doc infos, parseDoc W.doc = .ok doc ∧ Describable W doc infos) ∧
    ∀ files, generate W = .ok files → ∃ doc infos values blocks, parseDoc W.doc = .ok doc ∧ Describable W doc infos ∧
      Describing W doc infos values blocks ∧ files = describedFiles W values blocks := by
  have key : ∀ files, generate W = .ok files → ∃ doc infos, parseDoc W.doc = .ok doc ∧ Describable W doc infos := by
    intro files h
    unfold generate at h
    obtain ⟨doc, hd, h⟩ := bindOk h
    split at h
    · cases h
    · next hag =>
      have hag : agree W.triples doc = true := by simpa using hag
      obtain ⟨infos, hi, h⟩ := bindOk h
      obtain ⟨enums, he, h⟩ := bindOk h
      obtain ⟨targets, ht, _⟩ := bindOk h
      have hsame := (agree_iff _ _).mp hag
      unfold targetsInfo at hi
      have hcfg := (mapList_iff _ _ _).mp hi
      have hcfg' : List.Forall₂ (fun t i => ∃ lines, W.cfg t = some lines ∧ parseInfo lines = .ok i) W.triples infos := by
        refine hcfg.imp fun t i hti => ?_
        unfold targetInfo at hti
        split at hti
        · next lines hl => exact ⟨lines, hl, hti⟩
        · cases hti
      refine ⟨doc, infos, hd, hsame, hcfg', ?_, ?_⟩
      · intro i hi f hf
        have : f.key ∈ fields := by rw [fields_eq]; exact List.mem_map_of_mem hf
        obtain ⟨x, hx⟩ := (mapList_total fields).mp ⟨enums, he⟩ f.key this
        exact enumOutput_keys W infos f.key x hx i hi
      · intro t htt d hdl
        unfold targetsFile at ht
        obtain ⟨blocks, hb, _⟩ := bindOk ht
        have hlen : W.triples.length = infos.length := hcfg'.length_eq
        obtain ⟨n, hn, hnt⟩ := List.getElem_of_mem htt
        have hx : (t, infos[n]'(hlen ▸ hn)) ∈ W.triples.zip infos := by
          rw [← hnt]
          have : (W.triples.zip infos)[n]'(by simp [hlen.symm, hn]) = (W.triples[n], infos[n]'(hlen ▸ hn)) := List.getElem_zip
          rw [← this]
          exact List.getElem_mem _
        obtain ⟨block, hblock⟩ := (mapList_total (W.triples.zip infos)).mp ⟨blocks, hb⟩ _ hx
        unfold targetBlock at hblock
        simp only [hdl] at hblock
        unfold targetStruct at hblock
        obtain ⟨fs, _, hblock⟩ := bindOk hblock
        obtain ⟨tn, htn, _⟩ := bindOk hblock
        unfold tierName at htn
        by_contra hno
        rw [if_neg (by tauto), if_neg (by tauto), if_neg (by tauto)] at htn
        cases htn
  constructor
  · constructor
    · rintro ⟨files, h⟩
      exact key files h
    · rintro ⟨doc, infos, hd, hdes⟩
      obtain ⟨values, blocks, _, hg⟩ := generate_of W doc infos hd hdes
      exact ⟨_, hg⟩
  · intro files h
    obtain ⟨doc, infos, hd, hdes⟩ := key files h
    obtain ⟨values, blocks, hD, hg⟩ := generate_of W doc infos hd hdes
    rw [h] at hg
    exact ⟨doc, infos, values, blocks, hd, hdes, hD, Outcome.ok.inj hg⟩

/-- **C76, the conversions written.**  If no two values of an enum get the same variant, `from_str` of what `as_str` gives is
the variant, and `as_str` of what `from_str` gives is the text: the arms are tried in order. -/
theorem C76_roundtrip (values : List Str) (hv : ∀ a ∈ values, ∀ b ∈ values, variantName a = variantName b → a = b) (v : Str)
    (h : v ∈ values) :
    (values.map fun x => (x, variantName x)).lookup v = some (variantName v) ∧
    (values.map fun x => (variantName x, x)).lookup (variantName v) = some v := by
  induction values with
  | nil => cases h
  | cons x xs ih =>
    have hv' : ∀ a ∈ xs, ∀ b ∈ xs, variantName a = variantName b → a = b :=
      fun a ha b hb => hv a (List.mem_cons_of_mem _ ha) b (List.mem_cons_of_mem _ hb)
    rw [List.map_cons, List.map_cons, List.lookup_cons, List.lookup_cons]
    by_cases hx : v = x
    · subst hx
      rw [beq_self_eq_true, beq_self_eq_true]
      exact ⟨rfl, rfl⟩
    · have hin : v ∈ xs := (List.mem_cons.mp h).resolve_left hx
      have hne : variantName v ≠ variantName x := fun he => hx (hv v h x List.mem_cons_self he)
      rw [beq_false_of_ne hx, beq_false_of_ne hne]
      exact ih hv' hin

/-- **C76, violation.**  If two values get the same variant, `as_str` gives the first of them for both. -/
theorem C76_roundtrip_clash (a b : Str) (r : List Str) (he : variantName a = variantName b) :
    ((a :: b :: r).map fun x => (variantName x, x)).lookup (variantName b) = some a := by
  rw [List.map_cons, List.lookup_cons, he, beq_self_eq_true]

end Verif.Props
