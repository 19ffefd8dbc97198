import Verif.Spec.ListVersions
import Verif.Props.AdminLint
import Verif.Props.AdvisoryDecode

/-!
# C72: listing affected versions
-/

namespace Verif.Props

open Verif.Adv Verif.Db Verif.Assign Verif.AdminLint Verif.Semver Verif.Osv Verif.ListVersions Verif.Spec

/-- An advisory of a checkout decides every version. -/
theorem loaded_decides {L : AdvLib} {sev : Cvss.Cvss → Severity} {c : Checkout} {db : Database}
    (hreq : ∀ s r, L.req s = some r → ReqWF r) (ho : Database.open (c.tree L sev) = .ok db) {a : Advisory}
    (ha : a ∈ db.iter) (v : Version) : ∃ b, a.versions.isVulnerable v = .ok b ∧ (b = true ↔ Hit a v) := by
  obtain ⟨col, -, -, -, text, af, -, -, -, hfs, rfl⟩ := loaded_from_file ho ha
  exact C68_vulnerable L hreq text af hfs v

theorem loaded_collection {t : Tree} {db : Database} (ho : Database.open t = .ok db) {a : Advisory} (ha : a ∈ db.iter) :
    ∃ c, a.metadata.collection = some c := by
  obtain ⟨c, _, _, _, _, _, rfl, _⟩ := C18_loaded_well_placed _ db ho a ha
  exact ⟨c, rfl⟩

variable {E : ListEnv} {index : Str → Answer}

/-- The versions of one crate. -/
theorem listEach_spec {a : Advisory} (hv : ∀ v, ∃ b, a.versions.isVulnerable v = .ok b ∧ (b = true ↔ Hit a v)) :
    ∀ versions : List Str,
      ((listEach E a versions).result = .ok () ∨ (listEach E a versions).result = .panic) ∧
      ((listEach E a versions).result = .ok () ↔ ∀ t ∈ versions, ∃ v, E.version t = some v) ∧
      ((listEach E a versions).result = .ok () → List.Forall₂ (VerdictOn E a) versions (listEach E a versions).said) ∧
      ∀ s ∈ (listEach E a versions).said, ∃ t ∈ versions, VerdictOn E a t s
  | [] => by
    unfold listEach
    exact ⟨.inl rfl, ⟨fun _ t ht => (by cases ht), fun _ => rfl⟩, fun _ => .nil, fun s hs => by cases hs⟩
  | text :: rest => by
    obtain ⟨i1, i2, i3, i4⟩ := listEach_spec hv rest
    unfold listEach
    cases hp : E.version text with
    | none =>
      refine ⟨.inr rfl, ⟨fun h => (by cases h), fun h => ?_⟩, fun h => (by cases h), fun s hs => by cases hs⟩
      obtain ⟨v, e⟩ := h text List.mem_cons_self
      rw [hp] at e; cases e
    | some v =>
      obtain ⟨b, hb, hiff⟩ := hv v
      have key : ∀ line, VerdictOn E a text line → ∀ r : ListRun, r = (listEach E a rest).after [line] →
          ((r.result = .ok () ∨ r.result = .panic) ∧
          (r.result = .ok () ↔ ∀ t ∈ text :: rest, ∃ v, E.version t = some v) ∧
          (r.result = .ok () → List.Forall₂ (VerdictOn E a) (text :: rest) r.said) ∧
          ∀ s ∈ r.said, ∃ t ∈ text :: rest, VerdictOn E a t s) := by
        rintro line hline r rfl
        refine ⟨i1, ⟨fun h t ht => ?_, fun h => i2.mpr fun t ht => h t (List.mem_cons_of_mem _ ht)⟩,
          fun h => .cons hline (i3 h), fun s hs => ?_⟩
        · rcases List.mem_cons.mp ht with rfl | ht
          · exact ⟨v, hp⟩
          · exact i2.mp h t ht
        · rcases List.mem_cons.mp hs with rfl | hs
          · exact ⟨text, List.mem_cons_self, hline⟩
          · obtain ⟨t, ht, h⟩ := i4 s hs
            exact ⟨t, List.mem_cons_of_mem _ ht, h⟩
      simp only [hb]
      cases b with
      | true => exact key _ ⟨v, hp, .inl ⟨hiff.mp rfl, rfl⟩⟩ _ rfl
      | false => exact key _ ⟨v, hp, .inr ⟨(fun h => by have := hiff.mpr h; cases this), rfl⟩⟩ _ rfl

/-- When the versions of the package of an advisory can be listed. -/
def CanList (E : ListEnv) (index : Str → Answer) (a : Advisory) : Prop :=
  E.lockFree = true ∧ E.validName a.metadata.package = true ∧
    ∃ versions, index a.metadata.package = .found versions ∧ ∀ t ∈ versions, ∃ v, E.version t = some v

theorem processOne_spec {a : Advisory} (hv : ∀ v, ∃ b, a.versions.isVulnerable v = .ok b ∧ (b = true ↔ Hit a v)) :
    ((processOne E index a).result = .ok () ∨ (processOne E index a).result = .panic) ∧
    ((processOne E index a).result = .ok () ↔ CanList E index a) ∧
    ((processOne E index a).result = .ok () → SaidOf E index a (processOne E index a).said) ∧
    ∀ t, Said.line t ∈ (processOne E index a).said →
      ∃ versions, index a.metadata.package = .found versions ∧ ∃ text ∈ versions, VerdictOn E a text (.line t) := by
  unfold processOne
  have hpan : ∀ s : List Said, (∀ t, Said.line t ∉ s) → ¬ CanList E index a →
      ((((ListRun.after s { result := .panic }).result = .ok () ∨ (ListRun.after s { result := .panic }).result = .panic)) ∧
      ((ListRun.after s { result := .panic }).result = .ok () ↔ CanList E index a) ∧
      ((ListRun.after s { result := .panic }).result = .ok () → SaidOf E index a (ListRun.after s { result := .panic }).said) ∧
      ∀ t, Said.line t ∈ (ListRun.after s { result := .panic }).said →
        ∃ versions, index a.metadata.package = .found versions ∧ ∃ text ∈ versions, VerdictOn E a text (.line t)) := by
    intro s hs hn
    refine ⟨.inr rfl, ⟨fun h => (by cases h), fun h => absurd h hn⟩, fun h => (by cases h), fun t ht => ?_⟩
    have : Said.line t ∈ s := by
      rw [← List.append_nil s]; exact ht
    exact absurd this (hs t)
  have hno : ∀ t, Said.line t ∉ [Said.loaded a.metadata.id a.metadata.package] := by
    intro t h
    rw [List.mem_singleton] at h
    cases h
  split
  · rename_i hl
    split
    · rename_i hn
      cases hi : index a.metadata.package with
      | failed =>
        have := hpan _ hno fun ⟨_, _, vs, h, _⟩ => by rw [hi] at h; cases h
        rwa [hi] at this
      | missing =>
        have := hpan _ hno fun ⟨_, _, vs, h, _⟩ => by rw [hi] at h; cases h
        rwa [hi] at this
      | found versions =>
        obtain ⟨i1, i2, i3, i4⟩ := listEach_spec (E := E) hv versions
        refine ⟨i1, ⟨fun h => ⟨hl, hn, versions, hi, i2.mp h⟩, fun ⟨_, _, vs, h, hall⟩ => ?_⟩, fun h => ?_, fun t ht => ?_⟩
        · rw [hi] at h; cases h
          exact i2.mpr hall
        · exact ⟨versions, _, hi, rfl, i3 h⟩
        · rcases List.mem_cons.mp ht with h | h
          · cases h
          · exact ⟨versions, rfl, i4 _ h⟩
    · exact hpan _ hno fun ⟨_, h, _⟩ => by contradiction
  · exact hpan _ hno fun ⟨h, _⟩ => by contradiction

/-- The loop over the advisories. -/
theorem processAll_spec : ∀ as : List Advisory, (∀ a ∈ as, ∃ c, a.metadata.collection = some c) →
    (∀ a ∈ as, ∀ v, ∃ b, a.versions.isVulnerable v = .ok b ∧ (b = true ↔ Hit a v)) →
    ((processAll E index as).result = .ok () ∨ (processAll E index as).result = .panic) ∧
    ((processAll E index as).result = .ok () ↔
      ∀ a ∈ as, a.metadata.collection = some .crates → CanList E index a) ∧
    ((processAll E index as).result = .ok () → ∃ blocks,
      List.Forall₂ (SaidOf E index) (as.filter fun a => decide (a.metadata.collection = some .crates)) blocks ∧
      (processAll E index as).said = blocks.flatten) ∧
    ∀ t, Said.line t ∈ (processAll E index as).said → ∃ a ∈ as, a.metadata.collection = some .crates ∧
      ∃ versions, index a.metadata.package = .found versions ∧ ∃ text ∈ versions, VerdictOn E a text (.line t)
  | [], _, _ => by
    unfold processAll
    exact ⟨.inl rfl, ⟨fun _ a ha => (by cases ha), fun _ => rfl⟩, fun _ => ⟨[], .nil, rfl⟩, fun t ht => by cases ht⟩
  | a :: as, hc, hv => by
    obtain ⟨i1, i2, i3, i4⟩ := processAll_spec as (fun b hb => hc b (List.mem_cons_of_mem _ hb))
      (fun b hb => hv b (List.mem_cons_of_mem _ hb))
    obtain ⟨c, hca⟩ := hc a List.mem_cons_self
    unfold processAll
    rw [hca]
    cases c with
    | rust =>
      have hne : ¬ a.metadata.collection = some .crates := fun h => by rw [hca] at h; cases h
      simp only
      refine ⟨i1, ⟨fun h b hb hbc => ?_, fun h => i2.mpr fun b hb => h b (List.mem_cons_of_mem _ hb)⟩, fun h => ?_,
        fun t ht => ?_⟩
      · rcases List.mem_cons.mp hb with rfl | hb
        · exact absurd hbc hne
        · exact i2.mp h b hb hbc
      · rw [List.filter_cons_of_neg (by rw [decide_eq_true_eq]; exact hne)]
        exact i3 h
      · obtain ⟨b, hb, h⟩ := i4 t ht
        exact ⟨b, List.mem_cons_of_mem _ hb, h⟩
    | crates =>
      obtain ⟨j1, j2, j3, j4⟩ := processOne_spec (E := E) (index := index) (hv a List.mem_cons_self)
      simp only
      rcases j1 with hr | hr
      · rw [hr]
        refine ⟨i1, ⟨fun h b hb hbc => ?_, fun h => i2.mpr fun b hb => h b (List.mem_cons_of_mem _ hb)⟩, fun h => ?_,
          fun t ht => ?_⟩
        · rcases List.mem_cons.mp hb with rfl | hb
          · exact j2.mp hr
          · exact i2.mp h b hb hbc
        · rw [List.filter_cons_of_pos (by rw [decide_eq_true_eq]; exact hca)]
          obtain ⟨blocks, h1, h2⟩ := i3 h
          refine ⟨_ :: blocks, .cons (j3 hr) h1, ?_⟩
          rw [List.flatten_cons, ← h2]
          rfl
        · rcases List.mem_append.mp ht with h | h
          · exact ⟨a, List.mem_cons_self, hca, j4 t h⟩
          · obtain ⟨b, hb, h⟩ := i4 t h
            exact ⟨b, List.mem_cons_of_mem _ hb, h⟩
      · rw [hr]
        simp only
        refine ⟨.inr hr, ⟨fun h => ?_, fun h => ?_⟩, fun h => ?_, fun t ht => ⟨a, List.mem_cons_self, hca, j4 t ht⟩⟩
        · rw [hr] at h; cases h
        · have := j2.mpr (h a List.mem_cons_self hca)
          rw [hr] at this; cases this
        · rw [hr] at h; cases h

theorem listCommand_cases (E : ListEnv) (at_ : Str → Checkout) (paths : List Str) (path : Str) (hp : OnePath paths path) :
    listCommand E at_ paths =
      match Database.open ((at_ path).tree E.adv E.sev) with
      | .err => { result := .err }
      | .panic => { result := .panic }
      | .ok db =>
        match E.index with
        | none => { result := .err }
        | some index => if db.iter.isEmpty then { result := .err } else processAll E index db.iter := by
  rcases hp with ⟨rfl, rfl⟩ | rfl <;> rfl

/-- **C72.**  If the command finishes, it has said of every advisory on a crate, in the order of the database, exactly
which of the versions in the registry it affects: those that meet none of its requirements. -/
theorem C72_lists (E : ListEnv) (hreq : ∀ s r, E.adv.req s = some r → ReqWF r) (at_ : Str → Checkout) (paths : List Str)
    (h : (listCommand E at_ paths).result = .ok ()) :
    ∃ path db index blocks, OnePath paths path ∧ Database.open ((at_ path).tree E.adv E.sev) = .ok db ∧
      E.index = some index ∧ List.Forall₂ (SaidOf E index) (onCrates db) blocks ∧
      (listCommand E at_ paths).said = blocks.flatten := by
  have hpath : ∃ path, OnePath paths path := by
    match paths, h with
    | [], _ => exact ⟨_, .inl ⟨rfl, rfl⟩⟩
    | [p], _ => exact ⟨p, .inr rfl⟩
    | _ :: _ :: _, h => exact absurd h (by rw [listCommand]; exact nofun)
  obtain ⟨path, hp⟩ := hpath
  have e := listCommand_cases E at_ paths path hp
  rw [e] at h ⊢
  cases ho : Database.open ((at_ path).tree E.adv E.sev) with
  | err => rw [ho] at h; cases h
  | panic => rw [ho] at h; cases h
  | ok db =>
    cases hi : E.index with
    | none => rw [ho, hi] at h; cases h
    | some index =>
      rw [ho, hi] at h
      simp only at h ⊢
      split at h
      · cases h
      · rename_i hne
        rw [if_neg hne]
        obtain ⟨blocks, h1, h2⟩ := (processAll_spec (E := E) (index := index) db.iter (fun a ha => loaded_collection ho ha)
          (fun a ha => loaded_decides hreq ho ha)).2.2.1 h
        exact ⟨path, db, index, blocks, hp, ho, rfl, h1, h2⟩

/-- **C72.**  When it finishes; otherwise it ends with exit status 1 before saying anything, or panics. -/
theorem C72_finishes (E : ListEnv) (hreq : ∀ s r, E.adv.req s = some r → ReqWF r) (at_ : Str → Checkout)
    (paths : List Str) (path : Str) (hp : OnePath paths path) :
    ((listCommand E at_ paths).result = .ok () ↔
      ∃ db index, Database.open ((at_ path).tree E.adv E.sev) = .ok db ∧ E.index = some index ∧ db.iter ≠ [] ∧
        ∀ a ∈ onCrates db, E.lockFree = true ∧ E.validName a.metadata.package = true ∧
          ∃ versions, index a.metadata.package = .found versions ∧ ∀ t ∈ versions, ∃ v, E.version t = some v) ∧
    ((listCommand E at_ paths).result = .err → (listCommand E at_ paths).said = []) := by
  rw [listCommand_cases E at_ paths path hp]
  cases ho : Database.open ((at_ path).tree E.adv E.sev) with
  | err => exact ⟨⟨fun h => (by cases h), fun ⟨_, _, h, _⟩ => (by cases h)⟩, fun _ => rfl⟩
  | panic => exact ⟨⟨fun h => (by cases h), fun ⟨_, _, h, _⟩ => (by cases h)⟩, fun _ => rfl⟩
  | ok db =>
    cases hi : E.index with
    | none => exact ⟨⟨fun h => (by cases h), fun ⟨_, _, _, h, _⟩ => (by cases h)⟩, fun _ => rfl⟩
    | some index =>
      simp only
      split
      · rename_i hemp
        refine ⟨⟨fun h => (by cases h), fun ⟨db', _, h, _, hne, _⟩ => ?_⟩, fun _ => rfl⟩
        cases h
        exact absurd (List.isEmpty_iff.mp hemp) hne
      · rename_i hemp
        obtain ⟨k1, k2, -, -⟩ := processAll_spec (E := E) (index := index) db.iter (fun a ha => loaded_collection ho ha)
          (fun a ha => loaded_decides hreq ho ha)
        refine ⟨⟨fun h => ⟨db, index, rfl, rfl, fun e => hemp (by rw [e]; rfl), fun a ha => ?_⟩,
          fun ⟨db', index', h, h', _, hall⟩ => k2.mpr fun a ha hc => ?_⟩, fun h => ?_⟩
        · obtain ⟨h1, h2⟩ := List.mem_filter.mp ha
          exact k2.mp h a h1 (of_decide_eq_true h2)
        · cases h; cases h'
          exact hall a (List.mem_filter.mpr ⟨ha, decide_eq_true hc⟩)
        · rcases k1 with k | k <;> rw [k] at h <;> cases h

/-- **C72.**  However it ends, every line it has printed on a version is true of some advisory on a crate. -/
theorem C72_truthful (E : ListEnv) (hreq : ∀ s r, E.adv.req s = some r → ReqWF r) (at_ : Str → Checkout) (paths : List Str)
    (path : Str) (hp : OnePath paths path) (t : Str) (ht : Said.line t ∈ (listCommand E at_ paths).said) :
    ∃ db index, Database.open ((at_ path).tree E.adv E.sev) = .ok db ∧ E.index = some index ∧ ∃ a ∈ onCrates db,
      ∃ versions, index a.metadata.package = .found versions ∧ ∃ text ∈ versions, VerdictOn E a text (.line t) := by
  rw [listCommand_cases E at_ paths path hp] at ht
  cases ho : Database.open ((at_ path).tree E.adv E.sev) with
  | err => rw [ho] at ht; cases ht
  | panic => rw [ho] at ht; cases ht
  | ok db =>
    cases hi : E.index with
    | none => rw [ho, hi] at ht; cases ht
    | some index =>
      rw [ho, hi] at ht
      simp only at ht
      split at ht
      · cases ht
      · obtain ⟨a, ha, hc, h⟩ := (processAll_spec (E := E) (index := index) db.iter (fun a ha => loaded_collection ho ha)
          (fun a ha => loaded_decides hreq ho ha)).2.2.2 t ht
        exact ⟨db, index, rfl, rfl, a, List.mem_filter.mpr ⟨ha, decide_eq_true hc⟩, h⟩

/-- C72, violation: two paths make the command panic. -/
theorem C72_two_paths_panic (E : ListEnv) (at_ : Str → Checkout) (p q : Str) (r : List Str) :
    (listCommand E at_ (p :: q :: r)).result = .panic := rfl

/-- C72, violation: an advisory for a crate that is no longer in the registry, as `expect-deleted` allows and the linter
accepts, makes the command panic, and no advisory after it is listed. -/
theorem C72_deleted_panics (E : ListEnv) (hreq : ∀ s r, E.adv.req s = some r → ReqWF r) (at_ : Str → Checkout)
    (paths : List Str) (path : Str) (hp : OnePath paths path) (db : Database) (index : Str → Answer)
    (ho : Database.open ((at_ path).tree E.adv E.sev) = .ok db) (hi : E.index = some index) (a : Advisory)
    (ha : a ∈ onCrates db) (hm : index a.metadata.package = .missing) :
    (listCommand E at_ paths).result = .panic := by
  have hne : db.iter ≠ [] := List.ne_nil_of_mem (List.mem_filter.mp ha).1
  have hnot : (listCommand E at_ paths).result ≠ .ok () := by
    intro h
    obtain ⟨db', index', h1, h2, -, h3⟩ := (C72_finishes E hreq at_ paths path hp).1.mp h
    rw [ho] at h1; cases h1
    rw [hi] at h2; cases h2
    obtain ⟨-, -, vs, h4, -⟩ := h3 a ha
    rw [hm] at h4; cases h4
  rw [listCommand_cases E at_ paths path hp, ho, hi] at hnot ⊢
  simp only at hnot ⊢
  rw [if_neg (fun h => hne (List.isEmpty_iff.mp h))] at hnot ⊢
  rcases (processAll_spec (E := E) (index := index) db.iter (fun a ha => loaded_collection ho ha)
    (fun a ha => loaded_decides hreq ho ha)).1 with k | k
  · exact absurd k hnot
  · exact k

end Verif.Props
