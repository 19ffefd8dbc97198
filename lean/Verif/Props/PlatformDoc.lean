import Verif.Props.PlatformGen

/-!
# C76: what the generator reads from the documentation and from `rustc`
-/

namespace Verif.Props

open Verif.PlatGen Verif.Spec Verif.Adv

theorem isDigit_iff (c : Char) : c.isDigit = true ↔ '0' ≤ c ∧ c ≤ '9' := by
  simp only [Char.isDigit, Bool.and_eq_true, decide_eq_true_eq]
  exact Iff.rfl

theorem headingTier_iff (first : Option Node) (n : Nat) : headingTier first = some n ↔ TierHeading first n := by
  unfold TierHeading
  cases first with
  | none => simp [headingTier]
  | some node =>
    cases node with
    | code l => simp [headingTier]
    | other cs => simp [headingTier]
    | text s =>
      simp only [headingTier, Option.some.injEq, Node.text.injEq]
      constructor
      · intro h
        split at h
        · next hp =>
          obtain ⟨r, hr⟩ := List.isPrefixOf_iff_prefix.mp hp
          rw [← hr] at h
          have hd : ("Tier ".toList ++ r).drop 5 = r := List.drop_left' rfl
          rw [hd] at h
          cases r with
          | nil => cases h
          | cons c rest =>
            simp only at h
            split at h
            · next hc =>
              cases h
              exact ⟨s, c, rest, rfl, hr.symm, ((isDigit_iff c).mp hc).1, ((isDigit_iff c).mp hc).2, rfl⟩
            · cases h
        · cases h
      · rintro ⟨s', c, rest, hs, ht, h1, h2, hn⟩
        rw [hs, ht]
        have hp : startsWith ("Tier ".toList ++ c :: rest) "Tier " = true :=
          List.isPrefixOf_iff_prefix.mpr (List.prefix_append _ _)
        rw [if_pos hp]
        have hd : ("Tier ".toList ++ c :: rest).drop 5 = c :: rest := List.drop_left' rfl
        rw [hd]
        simp only
        rw [if_pos ((isDigit_iff c).mpr ⟨h1, h2⟩), hn]
        rfl

theorem tierHeading_unique {f : Option Node} {m n : Nat} (h : TierHeading f m) (h' : TierHeading f n) : m = n := by
  rw [← headingTier_iff] at h h'
  rw [h] at h'
  exact Option.some.inj h'

/-- The step of `column`. -/
theorem column_iff (title : String) (header : List Cell) (i : Nat) :
    column title header = some i ↔ TitledColumn title.toList header i := by
  unfold TitledColumn
  induction header using List.reverseRecOn generalizing i with
  | nil => simp [column]
  | append_singleton cs c ih =>
    have hstep : column title (cs ++ [c]) = columnStep title (column title cs) (c, cs.length) := by
      unfold column
      rw [List.zipIdx_append, List.foldl_append]
      simp
    have hlast : (cs ++ [c])[cs.length]? = some c := by simp
    have hold : ∀ (j : Nat) (x : Cell), (cs ++ [c])[j]? = some x → cs[j]? = some x ∨ (j = cs.length ∧ x = c) := by
      intro j x h
      rcases Nat.lt_trichotomy j cs.length with hj | hj | hj
      · rw [List.getElem?_append_left hj] at h; exact Or.inl h
      · subst hj; rw [hlast] at h; exact Or.inr ⟨rfl, (Option.some.inj h).symm⟩
      · rw [List.getElem?_eq_none (by simp; omega)] at h; cases h
    have hnew : ∀ (j : Nat) (x : Cell), cs[j]? = some x → (cs ++ [c])[j]? = some x := by
      intro j x h
      obtain ⟨hj, _⟩ := List.getElem?_eq_some_iff.mp h
      rw [List.getElem?_append_left hj]; exact h
    have hlen : ∀ (j : Nat) (x : Cell), cs[j]? = some x → j < cs.length := fun j x h => (List.getElem?_eq_some_iff.mp h).1
    by_cases hc : ∃ s, c.first = some (.text s) ∧ trimEnd (trimStart s) = title.toList
    · obtain ⟨s, hs, ht⟩ := hc
      have hcol : column title (cs ++ [c]) = some cs.length := by
        rw [hstep]; unfold columnStep; simp only; rw [hs]; simp only; rw [if_pos ht]
      rw [hcol]
      constructor
      · intro h
        have := Option.some.inj h
        subst this
        refine ⟨⟨c, s, hlast, hs, ht⟩, ?_⟩
        intro j x s' hj hx
        rw [List.getElem?_eq_none (by simp; omega)] at hx; cases hx
      · rintro ⟨⟨x, s', hx, hxs, hxt⟩, hno⟩
        rcases hold i x hx with h | ⟨h, _⟩
        · exact absurd ht (hno _ c s (hlen i x h) hlast hs)
        · rw [h]
    · have hcol : column title (cs ++ [c]) = column title cs := by
        rw [hstep]
        unfold columnStep
        split
        · next s hs => rw [if_neg fun ht => hc ⟨s, hs, ht⟩]
        · rfl
      rw [hcol, ih]
      constructor
      · rintro ⟨⟨x, s, hx, hxs, hxt⟩, hno⟩
        refine ⟨⟨x, s, hnew i x hx, hxs, hxt⟩, ?_⟩
        intro j y s' hj hy hys hyt
        rcases hold j y hy with h | ⟨_, h⟩
        · exact hno j y s' hj h hys hyt
        · exact hc ⟨s', h ▸ hys, hyt⟩
      · rintro ⟨⟨x, s, hx, hxs, hxt⟩, hno⟩
        rcases hold i x hx with h | ⟨_, h⟩
        · exact ⟨⟨x, s, h, hxs, hxt⟩, fun j y s' hj hy => hno j y s' hj (hnew j y hy)⟩
        · exact absurd ⟨s, h ▸ hxs, hxt⟩ hc

theorem titledColumn_unique {t : String} {h : List Cell} {i j : Nat} (hi : TitledColumn t.toList h i)
    (hj : TitledColumn t.toList h j) : i = j := by
  rw [← column_iff] at hi hj
  rw [hi] at hj
  exact Option.some.inj hj

theorem firstCode_iff (n : Node) (l : Str) : n.firstCode = some l ↔ BeginsWithCode n l := by
  constructor
  · intro h
    fun_induction Node.firstCode n with
    | case1 l' => cases h; exact .code _
    | case2 => cases h
    | case3 => cases h
    | case4 c cs ih => exact .down c cs l (ih h)
  · intro h
    induction h with
    | code l => rfl
    | down c cs l _ ih => rw [Node.firstCode]; exact ih

theorem rowEntry_iff (tier tc nc : Nat) (header row : List Cell) (ht : TitledColumn "target".toList header tc)
    (hn : TitledColumn "notes".toList header nc) (target : Str) (info : DocInfo) :
    rowEntry tier tc nc row = some (target, info) ↔
      ∃ notes, RowOf header row target notes ∧ info = ⟨tier, notesText notes⟩ := by
  constructor
  · intro h
    unfold rowEntry at h
    split at h
    · next t n h1 h2 =>
      split at h
      · next target' hf =>
        obtain ⟨rfl, rfl⟩ := Prod.mk.inj (Option.some.inj h)
        obtain ⟨node, hnode, hcode⟩ := Option.bind_eq_some_iff.mp hf
        exact ⟨n.notes, ⟨tc, nc, t, n, node, ht, hn, h1, h2, hnode, (firstCode_iff _ _).mp hcode, rfl⟩, rfl⟩
      · cases h
    · cases h
  · rintro ⟨notes, ⟨i, j, t, n, node, hi, hj, h1, h2, hnode, hcode, hnotes⟩, hinfo⟩
    rw [titledColumn_unique hi ht] at h1
    rw [titledColumn_unique hj hn] at h2
    unfold rowEntry
    rw [h1, h2]
    simp only
    rw [hnode, Option.bind_some, (firstCode_iff _ _).mpr hcode]
    simp only
    rw [hinfo, hnotes]

/-! ### Under which heading -/

theorem under_heading (pre : List Block) (f : Option Node) (n t : Nat) (h : TierHeading f n) :
    Under (pre ++ [.heading f]) t ↔ t = n := by
  constructor
  · rintro ⟨a, f', b, he, hf', hno⟩
    rcases List.eq_nil_or_concat' b with rfl | ⟨b', x, rfl⟩
    · have := List.append_inj' he rfl
      injection this.2 with h1
      injection h1 with h1
      exact tierHeading_unique (h1 ▸ hf') h
    · exfalso
      rw [← List.cons_append, ← List.append_assoc] at he
      have := (List.append_inj' he rfl).2
      injection this with h1
      exact hno f n (by rw [← h1]; simp) h
  · rintro rfl
    exact ⟨pre, f, [], rfl, h, fun _ _ hm => by cases hm⟩

theorem under_skip (pre : List Block) (b : Block) (t : Nat) (hb : ∀ f n, b = .heading f → ¬ TierHeading f n) :
    Under (pre ++ [b]) t ↔ Under pre t := by
  constructor
  · rintro ⟨a, f', x, he, hf', hno⟩
    rcases List.eq_nil_or_concat' x with rfl | ⟨x', y, rfl⟩
    · have := (List.append_inj' he rfl).2
      injection this with h1
      exact absurd hf' (hb _ _ h1)
    · rw [← List.cons_append, ← List.append_assoc] at he
      have := List.append_inj' he rfl
      exact ⟨a, f', x', this.1, hf', fun g m hg => hno g m (by simp [hg])⟩
  · rintro ⟨a, f', x, he, hf', hno⟩
    refine ⟨a, f', x ++ [b], by rw [he]; simp, hf', ?_⟩
    intro g m hg
    rcases List.mem_append.mp hg with h | h
    · exact hno g m h
    · exact hb g m (List.mem_singleton.mp h).symm

theorem under_unique {bs : List Block} {m n : Nat} (h : Under bs m) (h' : Under bs n) : m = n := by
  induction bs using List.reverseRecOn generalizing m n with
  | nil => obtain ⟨a, f, b, he, _⟩ := h; simp at he
  | append_singleton bs b ih =>
    by_cases hb : ∃ f k, b = .heading f ∧ TierHeading f k
    · obtain ⟨f, k, rfl, hk⟩ := hb
      rw [under_heading _ _ _ _ hk] at h h'
      rw [h, h']
    · have hb' : ∀ f k, b = .heading f → ¬ TierHeading f k := fun f k h1 h2 => hb ⟨f, k, h1, h2⟩
      rw [under_skip _ _ _ hb'] at h h'
      exact ih h h'

/-- `Documented`, with blocks before. -/
def DocIn (pre blocks : List Block) (target : Str) (tier : Nat) (notes : List (Option Str)) : Prop :=
  ∃ a header rows post row, blocks = a ++ .table (some header) rows :: post ∧ Under (pre ++ a) tier ∧ row ∈ rows ∧
    RowOf header row target notes

theorem docIn_nil (blocks : List Block) (target : Str) (tier : Nat) (notes : List (Option Str)) :
    DocIn [] blocks target tier notes ↔ Documented blocks target tier notes := Iff.rfl

theorem docIn_cons (pre : List Block) (b : Block) (bs : List Block) (target : Str) (tier : Nat) (notes : List (Option Str)) :
    DocIn pre (b :: bs) target tier notes ↔
      (∃ header rows row, b = .table (some header) rows ∧ Under pre tier ∧ row ∈ rows ∧ RowOf header row target notes) ∨
        DocIn (pre ++ [b]) bs target tier notes := by
  constructor
  · rintro ⟨a, header, rows, post, row, he, hu, hr, ho⟩
    cases a with
    | nil =>
      injection he with h1 h2
      rw [List.append_nil] at hu
      exact Or.inl ⟨header, rows, row, h1, hu, hr, ho⟩
    | cons x a =>
      injection he with h1 h2
      subst h1
      exact Or.inr ⟨a, header, rows, post, row, h2, by rwa [List.append_assoc, List.singleton_append], hr, ho⟩
  · rintro (⟨header, rows, row, rfl, hu, hr, ho⟩ | ⟨a, header, rows, post, row, he, hu, hr, ho⟩)
    · exact ⟨[], header, rows, bs, row, rfl, by rwa [List.append_nil], hr, ho⟩
    · exact ⟨b :: a, header, rows, post, row, by rw [he]; rfl, by rwa [List.append_assoc, List.singleton_append] at hu, hr, ho⟩

/-- What is known of the state of the reader. -/
def AtTier (pre : List Block) (tier : Option Nat) : Prop := ∀ t, tier = some t ↔ Under pre t

theorem AtTier.skip {pre : List Block} {tier : Option Nat} (h : AtTier pre tier) (b : Block)
    (hb : ∀ f n, b = .heading f → ¬ TierHeading f n) : AtTier (pre ++ [b]) tier := by
  intro t; rw [under_skip _ _ _ hb]; exact h t

/-- Under the induction: what the rows are, which of them comes first. -/
theorem docRows_spec (blocks : List Block) : ∀ (pre : List Block) (tier : Option Nat), AtTier pre tier →
    (∀ target info, (target, info) ∈ (docRows tier blocks).1 ↔
      ∃ notes, DocIn pre blocks target info.tier notes ∧ info.notes = notesText notes) ∧
    (∀ target info, (docRows tier blocks).1.lookup target = some info →
      ∃ a header before row after post notes, blocks = a ++ .table (some header) (before ++ row :: after) :: post ∧
        Under (pre ++ a) info.tier ∧ RowOf header row target notes ∧ info.notes = notesText notes ∧
        (∀ t ns, ¬ DocIn pre a target t ns) ∧ ∀ r ∈ before, ∀ ns, ¬ RowOf header r target ns) ∧
    ((docRows tier blocks).2 = true ↔ ∃ a header rows post t i j, blocks = a ++ .table (some header) rows :: post ∧
      Under (pre ++ a) t ∧ TitledColumn "target".toList header i ∧ TitledColumn "notes".toList header j) := by
  induction blocks with
  | nil =>
    intro pre tier _
    refine ⟨?_, ?_, ?_⟩
    · intro target info
      simp [docRows, DocIn]
    · intro target info h
      simp [docRows] at h
    · simp [docRows]
  | cons b bs ih =>
    intro pre tier hat
    -- a block that gives nothing
    have skip : ∀ tier', AtTier (pre ++ [b]) tier' → docRows tier (b :: bs) = docRows tier' bs →
        (∀ header rows t, b = .table (some header) rows → Under pre t →
          (∀ row target ns, ¬ RowOf header row target ns) ∧
          ∀ i j, ¬ (TitledColumn "target".toList header i ∧ TitledColumn "notes".toList header j)) →
        (∀ target info, (target, info) ∈ (docRows tier (b :: bs)).1 ↔
          ∃ notes, DocIn pre (b :: bs) target info.tier notes ∧ info.notes = notesText notes) ∧
        (∀ target info, (docRows tier (b :: bs)).1.lookup target = some info →
          ∃ a header before row after post notes, b :: bs = a ++ .table (some header) (before ++ row :: after) :: post ∧
            Under (pre ++ a) info.tier ∧ RowOf header row target notes ∧ info.notes = notesText notes ∧
            (∀ t ns, ¬ DocIn pre a target t ns) ∧ ∀ r ∈ before, ∀ ns, ¬ RowOf header r target ns) ∧
        ((docRows tier (b :: bs)).2 = true ↔ ∃ a header rows post t i j, b :: bs = a ++ .table (some header) rows :: post ∧
          Under (pre ++ a) t ∧ TitledColumn "target".toList header i ∧ TitledColumn "notes".toList header j) := by
      intro tier' hat' hd hb
      obtain ⟨h1, h2, h3⟩ := ih (pre ++ [b]) tier' hat'
      rw [hd]
      refine ⟨?_, ?_, ?_⟩
      · intro target info
        rw [h1 target info]
        refine exists_congr fun notes => and_congr ?_ Iff.rfl
        rw [docIn_cons]
        constructor
        · exact Or.inr
        · rintro (⟨header, rows, row, he, hu, _, ho⟩ | h)
          · exact absurd ho ((hb header rows _ he hu).1 row target notes)
          · exact h
      · intro target info hl
        obtain ⟨a, header, before, row, after, post, notes, he, hu, ho, hn, hno, hbe⟩ := h2 target info hl
        refine ⟨b :: a, header, before, row, after, post, notes, by rw [he]; rfl,
          by rwa [List.append_assoc, List.singleton_append] at hu, ho, hn, ?_, hbe⟩
        intro t ns hd'
        rcases (docIn_cons _ _ _ _ _ _).mp hd' with ⟨h', rows, r, hbe', hu', _, ho'⟩ | hd'
        · exact (hb h' rows t hbe' hu').1 _ _ _ ho'
        · exact hno t ns hd'
      · rw [h3]
        constructor
        · rintro ⟨a, header, rows, post, t, i, j, he, hu, hi, hj⟩
          exact ⟨b :: a, header, rows, post, t, i, j, by rw [he]; rfl,
            by rwa [List.append_assoc, List.singleton_append] at hu, hi, hj⟩
        · rintro ⟨a, header, rows, post, t, i, j, he, hu, hi, hj⟩
          cases a with
          | nil =>
            injection he with e1 e2
            rw [List.append_nil] at hu
            exact absurd ⟨hi, hj⟩ ((hb header rows t e1 hu).2 i j)
          | cons x a =>
            injection he with e1 e2
            subst e1
            exact ⟨a, header, rows, post, t, i, j, e2, by rwa [List.append_assoc, List.singleton_append], hi, hj⟩
    cases b with
    | other =>
      exact skip tier (hat.skip _ nofun) rfl nofun
    | heading f =>
      cases hf : headingTier f with
      | none =>
        refine skip tier (hat.skip _ ?_) ?_ nofun
        · intro f' n he hn
          injection he with he
          rw [← he, ← headingTier_iff, hf] at hn
          cases hn
        · rw [docRows, hf]
      | some t =>
        refine skip (some t) ?_ ?_ nofun
        · intro t'
          rw [under_heading _ _ _ _ ((headingTier_iff f t).mp hf), Option.some.injEq]
          exact eq_comm
        · rw [docRows, hf]
    | table header rows =>
      have hat' : AtTier (pre ++ [.table header rows]) tier := hat.skip _ nofun
      cases tier with
      | none =>
        refine skip none hat' (by cases header <;> rfl) ?_
        intro h r t _ hu
        exact absurd ((hat t).mpr hu) nofun
      | some t =>
        cases header with
        | none => exact skip (some t) hat' rfl nofun
        | some h =>
          have hut : Under pre t := (hat t).mp rfl
          cases htc : column "target" h with
          | none =>
            refine skip (some t) hat' (by simp only [docRows, htc]) ?_
            intro h' r t' he _
            injection he with he _
            injection he with he
            subst he
            constructor
            · rintro row target ns ⟨i, j, x, y, z, hi, _⟩
              rw [← column_iff, htc] at hi; cases hi
            · rintro i j ⟨hi, _⟩
              rw [← column_iff, htc] at hi; cases hi
          | some tc =>
            cases hnc : column "notes" h with
            | none =>
              refine skip (some t) hat' (by simp only [docRows, htc, hnc]) ?_
              intro h' r t' he _
              injection he with he _
              injection he with he
              subst he
              constructor
              · rintro row target ns ⟨i, j, x, y, z, _, hj, _⟩
                rw [← column_iff, hnc] at hj; cases hj
              · rintro i j ⟨_, hj⟩
                rw [← column_iff, hnc] at hj; cases hj
            | some nc =>
              have hi := (column_iff _ _ _).mp htc
              have hj := (column_iff _ _ _).mp hnc
              have hre := fun row target info => rowEntry_iff t tc nc h row hi hj target info
              obtain ⟨h1, h2, h3⟩ := ih (pre ++ [.table (some h) rows]) (some t) hat'
              have hd : docRows (some t) (.table (some h) rows :: bs) =
                  (rows.filterMap (rowEntry t tc nc) ++ (docRows (some t) bs).1, true) := by
                simp only [docRows, htc, hnc]
              rw [hd]
              refine ⟨?_, ?_, ?_⟩
              · intro target info
                rw [List.mem_append, h1, List.mem_filterMap]
                constructor
                · rintro (⟨row, hrow, hr⟩ | ⟨notes, hdn, hn⟩)
                  · obtain ⟨notes, ho, hinfo⟩ := (hre row target info).mp hr
                    refine ⟨notes, (docIn_cons _ _ _ _ _ _).mpr (Or.inl ⟨h, rows, row, rfl, ?_, hrow, ho⟩), ?_⟩
                    · rw [hinfo]; exact hut
                    · rw [hinfo]
                  · exact ⟨notes, (docIn_cons _ _ _ _ _ _).mpr (Or.inr hdn), hn⟩
                · rintro ⟨notes, hdn, hn⟩
                  rcases (docIn_cons _ _ _ _ _ _).mp hdn with ⟨h', rows', row, he, hu, hrow, ho⟩ | hdn
                  · injection he with he1 he2
                    injection he1 with he1
                    subst he1 he2
                    refine Or.inl ⟨row, hrow, (hre row target info).mpr ⟨notes, ho, ?_⟩⟩
                    rw [← hn, under_unique hut hu]
                  · exact Or.inr ⟨notes, hdn, hn⟩
              · intro target info hl
                rw [List.lookup_append] at hl
                -- the rows of this table
                have hfm : ∀ (rs : List (List Cell)),
                    (∀ i, (rs.filterMap (rowEntry t tc nc)).lookup target = some i →
                      ∃ before row after notes, rs = before ++ row :: after ∧ RowOf h row target notes ∧
                        i = ⟨t, notesText notes⟩ ∧ ∀ r ∈ before, ∀ ns, ¬ RowOf h r target ns) ∧
                    ((rs.filterMap (rowEntry t tc nc)).lookup target = none → ∀ r ∈ rs, ∀ ns, ¬ RowOf h r target ns) := by
                  intro rs
                  induction rs with
                  | nil => exact ⟨nofun, fun _ r hr => by cases hr⟩
                  | cons r rs ihr =>
                    cases hre' : rowEntry t tc nc r with
                    | none =>
                      have hno : ∀ ns, ¬ RowOf h r target ns := by
                        intro ns ho
                        rw [(hre r target _).mpr ⟨ns, ho, rfl⟩] at hre'
                        cases hre'
                      rw [List.filterMap_cons, hre']
                      constructor
                      · intro i hi'
                        obtain ⟨before, row, after, notes, he, ho, hinfo, hb⟩ := ihr.1 i hi'
                        refine ⟨r :: before, row, after, notes, by rw [he]; rfl, ho, hinfo, ?_⟩
                        intro r' hr'
                        rcases List.mem_cons.mp hr' with rfl | hr'
                        · exact hno
                        · exact hb r' hr'
                      · intro hn r' hr'
                        rcases List.mem_cons.mp hr' with rfl | hr'
                        · exact hno
                        · exact ihr.2 hn r' hr'
                    | some e =>
                      obtain ⟨k, v⟩ := e
                      rw [List.filterMap_cons, hre']
                      simp only
                      rw [List.lookup_cons]
                      by_cases hk : target = k
                      · subst hk
                        rw [beq_self_eq_true]
                        constructor
                        · intro i hi'
                          cases hi'
                          obtain ⟨notes, ho, hinfo⟩ := (hre r target v).mp hre'
                          exact ⟨[], r, rs, notes, rfl, ho, hinfo, fun _ h => by cases h⟩
                        · nofun
                      · have hno : ∀ ns, ¬ RowOf h r target ns := by
                          intro ns ho
                          rw [(hre r target _).mpr ⟨ns, ho, rfl⟩] at hre'
                          exact hk (Prod.mk.inj (Option.some.inj hre')).1
                        rw [beq_false_of_ne hk]
                        constructor
                        · intro i hi'
                          obtain ⟨before, row, after, notes, he, ho, hinfo, hb⟩ := ihr.1 i hi'
                          refine ⟨r :: before, row, after, notes, by rw [he]; rfl, ho, hinfo, ?_⟩
                          intro r' hr'
                          rcases List.mem_cons.mp hr' with rfl | hr'
                          · exact hno
                          · exact hb r' hr'
                        · intro hn r' hr'
                          rcases List.mem_cons.mp hr' with rfl | hr'
                          · exact hno
                          · exact ihr.2 hn r' hr'
                cases hl1 : (rows.filterMap (rowEntry t tc nc)).lookup target with
                | some i =>
                  rw [hl1] at hl
                  cases hl
                  obtain ⟨before, row, after, notes, he, ho, hinfo, hb⟩ := (hfm rows).1 _ hl1
                  refine ⟨[], h, before, row, after, bs, notes, by rw [he]; rfl, ?_, ho, by rw [hinfo], ?_, hb⟩
                  · rw [hinfo, List.append_nil]; exact hut
                  · rintro t' ns ⟨a, h', r', post, row', he', _⟩
                    simp at he'
                | none =>
                  rw [hl1, Option.none_or] at hl
                  obtain ⟨a, header, before, row, after, post, notes, he, hu, ho, hn, hno, hbe⟩ := h2 target info hl
                  refine ⟨.table (some h) rows :: a, header, before, row, after, post, notes, by rw [he]; rfl,
                    by rwa [List.append_assoc, List.singleton_append] at hu, ho, hn, ?_, hbe⟩
                  intro t' ns hd'
                  rcases (docIn_cons _ _ _ _ _ _).mp hd' with ⟨h', rows', r, hbe', hu', hr', ho'⟩ | hd'
                  · injection hbe' with e1 e2
                    injection e1 with e1
                    subst e1 e2
                    exact (hfm rows).2 hl1 r hr' ns ho'
                  · exact hno t' ns hd'
              · simp only [true_iff]
                exact ⟨[], h, rows, bs, t, tc, nc, rfl, by rwa [List.append_nil], hi, hj⟩

/-- **C76, reading the documentation.**  Reading succeeds exactly if some table with columns `target` and `notes` stands
under a heading `Tier N`; then a target is found exactly if a row of such a table gives it, and what is kept are the tier and
the notes of the first such row. -/
theorem C76_doc (blocks : List Block) :
    ((∃ m, parseDoc blocks = .ok m) ↔
      ∃ a header rows post t i j, blocks = a ++ .table (some header) rows :: post ∧ Under a t ∧
        TitledColumn "target".toList header i ∧ TitledColumn "notes".toList header j) ∧
    (∀ m, parseDoc blocks = .ok m → ∀ target,
      ((∃ info, (target, info) ∈ m) ↔ ∃ tier notes, Documented blocks target tier notes) ∧
      ((∃ info, m.lookup target = some info) ↔ ∃ tier notes, Documented blocks target tier notes) ∧
      ∀ info, m.lookup target = some info →
        ∃ notes, FirstDocumented blocks target info.tier notes ∧ info.notes = notesText notes) := by
  have hat : AtTier [] none := by
    intro t
    constructor
    · nofun
    · rintro ⟨a, f, b, he, _⟩
      simp at he
  obtain ⟨h1, h2, h3⟩ := docRows_spec blocks [] none hat
  constructor
  · unfold parseDoc
    simp only
    cases hb : (docRows none blocks).2 with
    | true =>
      have := h3.mp hb
      exact ⟨fun _ => this, fun _ => ⟨_, if_pos rfl⟩⟩
    | false =>
      constructor
      · rintro ⟨m, hm⟩
        rw [if_neg (by decide)] at hm
        cases hm
      · intro h
        rw [h3.mpr h] at hb
        cases hb
  · intro m hm target
    have hm' : m = (docRows none blocks).1 := by
      unfold parseDoc at hm
      simp only at hm
      split at hm
      · cases hm; rfl
      · cases hm
    subst hm'
    have hmem : (∃ info, (target, info) ∈ (docRows none blocks).1) ↔ ∃ tier notes, Documented blocks target tier notes := by
      constructor
      · rintro ⟨info, hi⟩
        obtain ⟨notes, hd, _⟩ := (h1 target info).mp hi
        exact ⟨_, notes, hd⟩
      · rintro ⟨tier, notes, hd⟩
        exact ⟨⟨tier, notesText notes⟩, (h1 target _).mpr ⟨notes, hd, rfl⟩⟩
    refine ⟨hmem, ?_, ?_⟩
    · rw [← hmem]
      constructor
      · rintro ⟨info, hi⟩
        exact ⟨info, lookup_mem_pair hi⟩
      · rintro ⟨info, hi⟩
        cases hl : (docRows none blocks).1.lookup target with
        | some i => exact ⟨i, rfl⟩
        | none =>
          rw [List.lookup_eq_none_iff] at hl
          have := hl _ hi
          simp at this
    · intro info hl
      obtain ⟨a, header, before, row, after, post, notes, he, hu, ho, hn, hno, hbe⟩ := h2 target info hl
      exact ⟨notes, ⟨a, header, before, row, after, post, he, hu, ho, hno, hbe⟩, hn⟩

/-- **C76, the highest tier.**  If the tiers of the headings never go up again in the document, the tier kept for a target is
the best it is documented with. -/
theorem C76_doc_highest (blocks : List Block)
    (hmono : ∀ a f b g m n, blocks = a ++ .heading f :: b → Block.heading g ∈ b → TierHeading f m → TierHeading g n → m ≤ n)
    (m : List (Str × DocInfo)) (hm : parseDoc blocks = .ok m) (target : Str) (info : DocInfo)
    (hl : m.lookup target = some info) (tier : Nat) (notes : List (Option Str))
    (hd : Documented blocks target tier notes) : info.tier ≤ tier := by
  obtain ⟨notes', ⟨pre, header, before, row, after, post, he, hu, ho, hno, hbe⟩, _⟩ := ((C76_doc blocks).2 m hm target).2.2 info hl
  obtain ⟨pre', header', rows', post', row', he', hu', hr', ho'⟩ := hd
  rw [he] at he'
  rcases List.append_eq_append_iff.mp he' with ⟨x, hx, hy⟩ | ⟨x, hx, hy⟩
  · -- pre' = pre ++ x
    cases x with
    | nil =>
      rw [List.append_nil] at hx
      rw [hx] at hu'
      exact (under_unique hu hu').le
    | cons y x =>
      obtain ⟨a, f, b, ha, hf, hfn⟩ := hu'
      rw [hx] at ha
      rcases List.append_eq_append_iff.mp ha with ⟨z, hz, hw⟩ | ⟨z, hz, hw⟩
      · -- the heading is after `pre`
        obtain ⟨a0, f0, b0, ha0, hf0, hfn0⟩ := hu
        refine hmono a0 f0 (b0 ++ .table (some header) (before ++ row :: after) :: post) f _ _ ?_ ?_ hf0 hf
        · rw [he, ha0]; simp
        · -- `heading f ∈ post` or in `pre`
          injection hy with hy1 hy2
          have hmem : Block.heading f ∈ y :: x := by rw [hw]; simp
          rcases List.mem_cons.mp hmem with h | h
          · rw [← hy1] at h; cases h
          · apply List.mem_append_right
            rw [hy2]
            simp [h]
      · -- it is in `pre`
        cases z with
        | nil =>
          exfalso
          injection hw with hw1 hw2
          injection hy with hy1 hy2
          rw [← hw1] at hy1; cases hy1
        | cons w z =>
          injection hw with hw1 hw2
          subst hw1
          have : Under pre tier := ⟨a, f, z, hz, hf, fun g k hg => hfn g k (by rw [hw2]; simp [hg])⟩
          exact (under_unique hu this).le
  · cases x with
    | nil =>
      rw [List.append_nil] at hx
      rw [hx] at hu
      exact (under_unique hu hu').le
    | cons y x =>
      injection hy with hy1 hy2
      exfalso
      exact hno tier notes ⟨pre', header', rows', x, row', by rw [hx, hy1], hu', hr', ho'⟩

/-! ### Notes -/

theorem dropEnd_spec (bad : Char → Bool) (a b : Str) (ha : NotAtEnd (fun c => bad c = true) a) (hb : ∀ c ∈ b, bad c = true) :
    ((a ++ b).reverse.dropWhile bad).reverse = a := by
  rw [List.reverse_append, List.dropWhile_append_of_pos (by intro c hc; exact hb c (List.mem_reverse.mp hc))]
  rcases List.eq_nil_or_concat' a with rfl | ⟨a', c, rfl⟩
  · rfl
  · have := ha a' c rfl
    rw [List.reverse_append, List.reverse_singleton, List.singleton_append, List.dropWhile_cons_of_neg (by simpa using this)]
    simp

/-- The step of `notesText`. -/
theorem notes_fold (pieces : List (Option Str)) (us : List Str) (acc : Str)
    (h : List.Forall₂ (fun t u => ∃ nl, t = u ++ nl ∧ (∀ c ∈ nl, LineEnd c) ∧ NotAtEnd LineEnd u) (pieces.filterMap id) us)
    (ha : NotAtEnd LineEnd acc) :
    pieces.foldl notesStep acc = acc ++ us.flatten := by
  induction pieces generalizing us acc with
  | nil => cases h; simp
  | cons p ps ih =>
    rw [List.foldl_cons]
    cases p with
    | none => exact ih us acc h ha
    | some t =>
      have h' : List.Forall₂ (fun t u => ∃ nl, t = u ++ nl ∧ (∀ c ∈ nl, LineEnd c) ∧ NotAtEnd LineEnd u)
          (t :: ps.filterMap id) us := h
      cases h' with
      | cons h1 h2 =>
        rename_i u us
        obtain ⟨nl, rfl, hnl, hu⟩ := h1
        have hau : NotAtEnd LineEnd (acc ++ u) := by
          rcases List.eq_nil_or_concat' u with rfl | ⟨u', c, rfl⟩
          · rwa [List.append_nil]
          · intro a d he
            rw [← List.append_assoc] at he
            have := List.append_inj' he rfl
            cases this.2
            exact hu u' _ rfl
        have hstep : ((acc ++ (u ++ nl)).reverse.dropWhile fun c => c = '\n' || c = '\r').reverse = acc ++ u := by
          rw [← List.append_assoc]
          apply dropEnd_spec
          · intro a c he hc
            exact hau a c he (by simpa [LineEnd] using hc)
          · intro c hc
            have := hnl c hc
            simpa [LineEnd] using this
        have hs' : notesStep acc (some (u ++ nl)) = acc ++ u := hstep
        rw [hs', ih us (acc ++ u) h2 hau, List.flatten_cons, List.append_assoc]

theorem unescape_escaped (a b : Str) (h : Escaped a b) : unescape '-' (unescape '_' a) = b := by
  have key : ∀ a b, Escaped a b → ∃ m, unescape '_' a = m ∧ unescape '-' m = b ∧
      (∀ c m', m = c :: m' → c = '\\' ∨ ∃ b', b = c :: b' ∧ unescape '-' m' = b') := by
    intro a b h
    induction h with
    | nil => exact ⟨[], rfl, rfl, nofun⟩
    | plain c a b hc _ ih =>
      obtain ⟨m, h1, h2, h3⟩ := ih
      have hm : ∀ d x, c ≠ '\\' → unescape d (c :: x) = c :: unescape d x := by
        intro d x hc
        cases x with
        | nil => rfl
        | cons y x => rw [unescape, if_neg (fun h => hc h.1)]
      refine ⟨c :: m, ?_, ?_, ?_⟩
      · rw [hm _ _ hc, h1]
      · rw [hm _ _ hc, h2]
      · intro c' m' he
        injection he with e1 e2
        subst e1 e2
        exact Or.inr ⟨b, rfl, h2⟩
    | escaped c a b hc _ ih =>
      obtain ⟨m, h1, h2, h3⟩ := ih
      rcases hc with rfl | rfl
      · refine ⟨'_' :: m, ?_, ?_, ?_⟩
        · rw [unescape, if_pos ⟨rfl, rfl⟩, h1]
        · cases m with
          | nil => rw [← h2]; rfl
          | cons y m => rw [unescape, if_neg (fun h => absurd h.1 (by decide)), h2]
        · intro c' m' he
          injection he with e1 e2
          subst e1 e2
          exact Or.inr ⟨b, rfl, h2⟩
      · have hu : unescape '_' ('-' :: a) = '-' :: m := by
          cases a with
          | nil => rw [← h1]; rfl
          | cons y a => rw [unescape, if_neg (fun h => absurd h.1 (by decide)), h1]
        refine ⟨'\\' :: '-' :: m, ?_, ?_, ?_⟩
        · rw [unescape, if_neg (by decide), hu]
        · rw [unescape, if_pos ⟨rfl, rfl⟩, h2]
        · intro c' m' he
          injection he with e1 e2
          exact Or.inl e1.symm
  obtain ⟨m, h1, h2, _⟩ := key a b h
  rw [h1, h2]

/-- **C76, notes.**  The notes are the texts of the pieces that are not left out, one after the other without their line ends,
without blanks at the end, and without the escapes before `_` and `-`. -/
theorem C76_notes (pieces : List (Option Str)) (us : List Str) (e blanks notes : Str)
    (hp : List.Forall₂ (fun t u => ∃ nl, t = u ++ nl ∧ (∀ c ∈ nl, LineEnd c) ∧ NotAtEnd LineEnd u) (pieces.filterMap id) us)
    (hu : us.flatten = e ++ blanks) (hb : ∀ c ∈ blanks, isWhite c = true) (he : NotAtEnd (fun c => isWhite c = true) e)
    (hn : Escaped e notes) : notesText pieces = notes := by
  unfold notesText
  simp only
  rw [notes_fold pieces us [] hp (fun a c h => by simp at h), List.nil_append, hu]
  unfold trimEnd
  rw [dropEnd_spec isWhite e blanks he hb]
  exact unescape_escaped e notes hn

example : notesText [some "64-bit\n".toList, none, some " x86\\_64 \\-\n".toList, some " \n".toList] = "64-bit x86_64 -".toList := by
  decide +kernel

end Verif.Props
