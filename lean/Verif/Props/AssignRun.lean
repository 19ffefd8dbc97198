import Verif.Spec.AssignRun
import Verif.Props.AssignerCrash
import Verif.Props.AssignerTitle
import Verif.Props.AssignerExamples

/-!
# `assign-id` as a command: where it works, what it prints and when (C107)
-/

namespace Verif.Props

open Verif.Adv Verif.Db Verif.Assign Verif.Spec

theorem changes_append (a b : List Event) : changes (a ++ b) = changes a ++ changes b := by
  unfold changes; exact List.filterMap_append

theorem printed_append (a b : List Event) : printed (a ++ b) = printed a ++ printed b := by
  unfold printed; exact List.filterMap_append

theorem changes_disk (es : List Effect) : changes (es.map Event.disk) = es := by
  induction es with
  | nil => rfl
  | cons e es ih => show e :: changes (es.map Event.disk) = _; rw [ih]

theorem printed_disk (es : List Effect) : printed (es.map Event.disk) = [] := by
  induction es with
  | nil => rfl
  | cons e es ih => exact ih

theorem changes_announce (g : Bool) (o : Option Assignment) : changes (announce g o) = [] := by
  cases o <;> cases g <;> rfl

/-- What happens to one file. -/
theorem assignFile_cases (L : AdvLib) (h : Highest) (p : Path) (t : Str) :
    (Db.isDraft p.file = false ∧ assignFile L h p t = ⟨[], .ok (h, none)⟩) ∨
    (Db.isDraft p.file = true ∧
      (assignFile L h p t = ⟨[], .err⟩ ∨ assignFile L h p t = ⟨[], .panic⟩ ∨
       ∃ y, assignFile L h p t = ⟨writes (target p y (top h y + 1)) (rewriteText (newId y (top h y + 1)) t), .err⟩ ∨
        assignFile L h p t = ⟨writes (target p y (top h y + 1)) (rewriteText (newId y (top h y + 1)) t) ++ [.remove p],
              .ok (h.set y (top h y + 1), some ⟨newId y (top h y + 1), p.dir⟩)⟩)) := by
  cases hd : Db.isDraft p.file with
  | false => left; refine ⟨rfl, ?_⟩; unfold assignFile; rw [hd]; rfl
  | true =>
    right
    refine ⟨rfl, ?_⟩
    cases hy : draftYear L t with
    | err => left; unfold assignFile; rw [hd, hy]; rfl
    | panic => right; left; unfold assignFile; rw [hd, hy]; rfl
    | ok y =>
      right; right
      refine ⟨y, ?_⟩
      cases hr : replaced t with
      | false => left; unfold assignFile; rw [hd, hy]; simp only [hr]; rfl
      | true => right; unfold assignFile; rw [hd, hy]; simp only [hr]; rfl

/-- The events are the effects of `assignFiles` with announcements in between. -/
theorem assignEvents_run (L : AdvLib) (g : Bool) (fs : Disk) : ∀ h,
    changes (assignEvents L g h fs).events = (assignFiles L h fs).effects ∧
    (∀ as, (assignEvents L g h fs).result = .ok as ↔ ∃ h', (assignFiles L h fs).result = .ok (h', as)) ∧
    (∀ as, (assignEvents L g h fs).result = .ok as → printed (assignEvents L g h fs).events =
      if g then [] else as.map fun a => .assigned a.id a.dir) := by
  induction fs with
  | nil =>
    intro h
    refine ⟨rfl, fun as => ?_, fun as e => ?_⟩
    · constructor
      · intro e; cases e; exact ⟨h, rfl⟩
      · rintro ⟨h', e⟩; cases e; rfl
    · cases e; cases g <;> rfl
  | cons f fs ih =>
    intro h
    obtain ⟨p, t⟩ := f
    rcases hf : assignFile L h p t with ⟨es, ⟨h', o⟩ | _ | _⟩
    · obtain ⟨i1, i2, i3⟩ := ih h'
      simp only [assignEvents, assignFiles, hf]
      refine ⟨?_, fun as => ?_, fun as e => ?_⟩
      · rw [changes_append, changes_append, changes_disk, changes_announce, List.nil_append, i1]
        rcases assignFiles L h' fs with ⟨es', ⟨h'', as⟩ | _ | _⟩ <;> rfl
      · constructor
        · intro e
          cases hr : (assignEvents L g h' fs).result with
          | ok as' =>
            rw [hr] at e; cases e
            obtain ⟨h2, e2⟩ := (i2 as').mp hr
            rcases hA : assignFiles L h' fs with ⟨es', r'⟩
            rw [hA] at e2
            simp only at e2
            subst e2
            exact ⟨h2, rfl⟩
          | err => rw [hr] at e; cases e
          | panic => rw [hr] at e; cases e
        · rintro ⟨h2, e⟩
          rcases hA : assignFiles L h' fs with ⟨es', ⟨h'', as'⟩ | _ | _⟩
          · rw [hA] at e
            cases e
            rw [(i2 as').mpr ⟨_, by rw [hA]⟩]
          · rw [hA] at e; cases e
          · rw [hA] at e; cases e
      · cases hr : (assignEvents L g h' fs).result with
        | ok as' =>
          rw [hr] at e; cases e
          rw [printed_append, printed_append, printed_disk, List.nil_append, i3 as' hr]
          cases g <;> cases o <;> rfl
        | err => rw [hr] at e; cases e
        | panic => rw [hr] at e; cases e
    · simp only [assignEvents, assignFiles, hf]
      refine ⟨changes_disk _, fun as => ⟨fun e => (by cases e), fun ⟨_, e⟩ => (by cases e)⟩, fun as e => (by cases e)⟩
    · simp only [assignEvents, assignFiles, hf]
      refine ⟨changes_disk _, fun as => ⟨fun e => (by cases e), fun ⟨_, e⟩ => (by cases e)⟩, fun as e => (by cases e)⟩

/-- The parts of a run of the command. -/
theorem assignAt_run (L : AdvLib) (sev : Cvss.Cvss → Severity) (d : Disk) (path : Str) (g : Bool) :
    changes (assignAt L sev d path g).events = (assignIds L sev d).effects ∧
    ((assignAt L sev d path g).result = .ok () ↔
      ∃ as, (assignIds L sev d).result = .ok as ∧ (g = true → ∃ t, Assign.title as = .ok t)) ∧
    (∀ as, (assignIds L sev d).result = .ok as → ((assignAt L sev d path g).result = .ok ()) →
      ∃ db, d.open L sev = .ok db ∧
        ((g = false ∧ printed (assignAt L sev d path g).events =
          .loaded db.iter.length path :: as.map fun a => .assigned a.id a.dir) ∨
        (g = true ∧ ∃ t, Assign.title as = .ok t ∧ printed (assignAt L sev d path g).events = [.title t]))) ∧
    (∀ x ∈ printed (assignAt L sev d path g).events, ∀ id dir, x = .assigned id dir → g = false) := by
  have hlines : ∀ h fs, ∀ x ∈ printed (assignEvents L true h fs).events, ∀ id dir, x ≠ AssignLine.assigned id dir := by
    intro h fs
    induction fs generalizing h with
    | nil => intro x hx; cases hx
    | cons f fs ih =>
      obtain ⟨p, t⟩ := f
      intro x hx
      rcases hf : assignFile L h p t with ⟨es, ⟨h', o⟩ | _ | _⟩
      · simp only [assignEvents, hf] at hx
        rw [printed_append, printed_append, printed_disk, List.nil_append] at hx
        have : printed (announce true o) = [] := by cases o <;> rfl
        rw [this] at hx
        exact ih h' x hx
      · simp only [assignEvents, hf, printed_disk] at hx; cases hx
      · simp only [assignEvents, hf, printed_disk] at hx; cases hx
  unfold assignAt assignIds
  cases ho : d.open L sev with
  | err => exact ⟨rfl, by simp, by simp, fun x hx => by cases hx⟩
  | panic => exact ⟨rfl, by simp, by simp, fun x hx => by cases hx⟩
  | ok db =>
    simp only
    split
    · exact ⟨rfl, by simp, by simp, fun x hx => by cases hx⟩
    · cases hc : Highest.collect [] db.iter with
      | err =>
        refine ⟨by cases g <;> rfl, by simp, by simp, fun x hx id dir e => ?_⟩
        cases g
        · rfl
        · cases hx
      | panic =>
        refine ⟨by cases g <;> rfl, by simp, by simp, fun x hx id dir e => ?_⟩
        cases g
        · rfl
        · cases hx
      | ok h =>
        simp only
        obtain ⟨r1, r2, r3⟩ := assignEvents_run L g (d.collection .crates ++ d.collection .rust) h
        have hl := hlines h (d.collection .crates ++ d.collection .rust)
        have hload : changes (if g then [] else [Event.line (.loaded db.iter.length path)]) = [] := by
          cases g <;> rfl
        rcases hA : assignFiles L h (d.collection .crates ++ d.collection .rust) with ⟨es, ⟨h', as⟩ | _ | _⟩
        · have hres := (r2 as).mpr ⟨h', by rw [hA]⟩
          rw [hA] at r1
          have r3 := r3 as hres
          rw [hres]
          cases g with
          | false =>
            simp only [Bool.false_eq_true, if_false] at r3 hload ⊢
            refine ⟨by rw [changes_append, hload, r1]; rfl, ⟨fun _ => ⟨as, rfl, fun e => by cases e⟩, fun _ => by first | rfl | trivial⟩,
              fun as' e _ => ⟨db, rfl, .inl ⟨by first | rfl | trivial, ?_⟩⟩, fun _ _ _ _ _ => by first | rfl | trivial⟩
            cases e
            rw [printed_append, r3]
            rfl
          | true =>
            simp only [if_true] at r3 hload ⊢
            cases ht : Assign.title as with
            | ok tt =>
              simp only
              refine ⟨by rw [changes_append, changes_append, hload, r1]; simp [changes],
                ⟨fun _ => ⟨as, rfl, fun _ => ⟨tt, ht⟩⟩, fun _ => by first | rfl | trivial⟩,
                fun as' e _ => ⟨db, rfl, .inr ⟨by first | rfl | trivial, tt, ?_, ?_⟩⟩, ?_⟩
              · cases e; exact ht
              · rw [printed_append, printed_append, r3]; rfl
              · intro x hx id dir e
                rw [printed_append, printed_append, r3] at hx
                subst e
                simp [printed] at hx
            | err =>
              simp only
              refine ⟨by rw [changes_append, hload, r1]; rfl, ⟨fun e => (by cases e), fun ⟨as', e, h2⟩ => ?_⟩,
                fun _ _ e => (by cases e), ?_⟩
              · cases e; obtain ⟨t, h2⟩ := h2 trivial; rw [ht] at h2; cases h2
              · intro x hx id dir e
                rw [printed_append, r3] at hx
                simp [printed] at hx
            | panic =>
              simp only
              refine ⟨by rw [changes_append, hload, r1]; rfl, ⟨fun e => (by cases e), fun ⟨as', e, h2⟩ => ?_⟩,
                fun _ _ e => (by cases e), ?_⟩
              · cases e; obtain ⟨t, h2⟩ := h2 trivial; rw [ht] at h2; cases h2
              · intro x hx id dir e
                rw [printed_append, r3] at hx
                simp [printed] at hx
        · have hres : ∀ as, (assignEvents L g h (d.collection .crates ++ d.collection .rust)).result ≠ .ok as := by
            intro as e
            obtain ⟨_, e⟩ := (r2 as).mp e
            rw [hA] at e; cases e
          rw [hA] at r1
          have hx : ∀ x ∈ printed ((if g then [] else [Event.line (.loaded db.iter.length path)]) ++
              (assignEvents L g h (d.collection .crates ++ d.collection .rust)).events),
              ∀ id dir, x = AssignLine.assigned id dir → g = false := by
            intro x hx id dir e
            cases g with
            | false => rfl
            | true =>
              rw [printed_append] at hx
              rcases List.mem_append.mp hx with hx | hx
              · cases hx
              · exact absurd e (hl x hx id dir)
          cases hr : (assignEvents L g h (d.collection .crates ++ d.collection .rust)).result with
          | ok as => exact absurd hr (hres as)
          | err => exact ⟨by rw [changes_append, hload, r1]; rfl, by simp, by simp, hx⟩
          | panic => exact ⟨by rw [changes_append, hload, r1]; rfl, by simp, by simp, hx⟩
        · have hres : ∀ as, (assignEvents L g h (d.collection .crates ++ d.collection .rust)).result ≠ .ok as := by
            intro as e
            obtain ⟨_, e⟩ := (r2 as).mp e
            rw [hA] at e; cases e
          rw [hA] at r1
          have hx : ∀ x ∈ printed ((if g then [] else [Event.line (.loaded db.iter.length path)]) ++
              (assignEvents L g h (d.collection .crates ++ d.collection .rust)).events),
              ∀ id dir, x = AssignLine.assigned id dir → g = false := by
            intro x hx id dir e
            cases g with
            | false => rfl
            | true =>
              rw [printed_append] at hx
              rcases List.mem_append.mp hx with hx | hx
              · cases hx
              · exact absurd e (hl x hx id dir)
          cases hr : (assignEvents L g h (d.collection .crates ++ d.collection .rust)).result with
          | ok as => exact absurd hr (hres as)
          | err => exact ⟨by rw [changes_append, hload, r1]; rfl, by simp, by simp, hx⟩
          | panic => exact ⟨by rw [changes_append, hload, r1]; rfl, by simp, by simp, hx⟩

/-- An announced assignment is complete, and stays so. -/
theorem told_core {L : AdvLib} (g : Bool) (fs : Disk) : ∀ (h : Highest) (D : Disk),
    ((created (assignFiles L h fs).effects).map Path.file).Nodup →
    (∀ q ∈ created (assignFiles L h fs).effects, ∀ f ∈ fs, q ≠ f.1) →
    (fs.map Prod.fst).Nodup →
    ∀ evs, evs <+: (assignEvents L g h fs).events → ∀ id dir, AssignLine.assigned id dir ∈ printed evs →
      ∃ f ∈ fs, Db.isDraft f.1.file = true ∧ f.1.dir = dir ∧ (applyAll D (changes evs)).read f.1 = none ∧
        ∃ y n, id = newId y n ∧ (applyAll D (changes evs)).read (target f.1 y n) = some (rewriteText id f.2) := by
  induction fs with
  | nil =>
    intro h D _ _ _ evs he id dir hm
    rw [List.prefix_nil.mp he] at hm; cases hm
  | cons f fs ih =>
    intro h D h1 h2 h3 evs he id dir hm
    obtain ⟨p, t⟩ := f
    have hdisk : ∀ es : List Effect, evs <+: es.map Event.disk → False := by
      intro es hes
      have : AssignLine.assigned id dir ∈ printed (es.map Event.disk) := (hes.filterMap _).subset hm
      rw [printed_disk] at this; cases this
    rcases assignFile_cases L h p t with ⟨hd, hf⟩ | ⟨hd, hf | hf | ⟨y, hf | hf⟩⟩
    · have e1 : (assignEvents L g h ((p, t) :: fs)).events = (assignEvents L g h fs).events := by
        simp [assignEvents, hf, announce]
      have e2 : (assignFiles L h ((p, t) :: fs)).effects = (assignFiles L h fs).effects := by
        simp only [assignFiles, hf]
        rcases assignFiles L h fs with ⟨es, r | _ | _⟩ <;> rfl
      rw [e1] at he
      rw [e2] at h1 h2
      obtain ⟨f, hfm, rest⟩ := ih h D h1 (fun q hq f hf => h2 q hq f (List.mem_cons_of_mem _ hf))
        (List.nodup_cons.mp h3).2 evs he id dir hm
      exact ⟨f, List.mem_cons_of_mem _ hfm, rest⟩
    · simp only [assignEvents, hf] at he; exact (hdisk _ he).elim
    · simp only [assignEvents, hf] at he; exact (hdisk _ he).elim
    · simp only [assignEvents, hf] at he; exact (hdisk _ he).elim
    · have e1 : (assignEvents L g h ((p, t) :: fs)).events =
          (writes (target p y (top h y + 1)) (rewriteText (newId y (top h y + 1)) t) ++ [Effect.remove p]).map Event.disk ++
          (announce g (some ⟨newId y (top h y + 1), p.dir⟩) ++
            (assignEvents L g (h.set y (top h y + 1)) fs).events) := by
        simp only [assignEvents, hf]
      have e2 : (assignFiles L h ((p, t) :: fs)).effects =
          writes (target p y (top h y + 1)) (rewriteText (newId y (top h y + 1)) t) ++
            .remove p :: (assignFiles L (h.set y (top h y + 1)) fs).effects := by
        simp only [assignFiles, hf]
        rcases assignFiles L (h.set y (top h y + 1)) fs with ⟨es, r | _ | _⟩ <;> simp
      rw [e1] at he
      rw [e2, created_step] at h1 h2
      rcases prefix_append_cases he with he' | ⟨ev1, rfl, he'⟩
      · exact (hdisk _ he').elim
      have hch : ∀ ev, changes ((writes (target p y (top h y + 1)) (rewriteText (newId y (top h y + 1)) t) ++
          [Effect.remove p]).map Event.disk ++ ev) =
          (writes (target p y (top h y + 1)) (rewriteText (newId y (top h y + 1)) t) ++ [Effect.remove p]) ++ changes ev := by
        intro ev; rw [changes_append, changes_disk]
      rw [printed_append, printed_disk, List.nil_append] at hm
      have hpq : target p y (top h y + 1) ≠ p := h2 _ (by simp) (p, t) (by simp)
      let D1 := applyAll D (writes (target p y (top h y + 1)) (rewriteText (newId y (top h y + 1)) t) ++ [Effect.remove p])
      have hone : ∀ (D : Disk) (e : Effect), applyAll D [e] = Effect.apply D e := fun _ _ => rfl
      have hq1 : D1.read (target p y (top h y + 1)) = some (rewriteText (newId y (top h y + 1)) t) := by
        show (applyAll D (_ ++ [_])).read _ = _
        rw [applyAll_append, hone, read_remove, if_neg hpq]
        exact read_writes _ _ _
      have hp1 : D1.read p = none := by
        show (applyAll D (_ ++ [_])).read _ = _
        rw [applyAll_append, hone, read_remove, if_pos rfl]
      have h1' := (List.nodup_cons.mp (by rw [List.map_cons] at h1; exact h1))
      have h2' : ∀ q ∈ created (assignFiles L (h.set y (top h y + 1)) fs).effects, ∀ f ∈ fs, q ≠ f.1 :=
        fun q hq f hf => h2 q (List.mem_cons_of_mem _ hq) f (List.mem_cons_of_mem _ hf)
      have h3' := List.nodup_cons.mp (by rw [List.map_cons] at h3; exact h3)
      rw [hch]
      -- the events after the announcement
      have key : ∀ ev2, ev2 <+: (assignEvents L g (h.set y (top h y + 1)) fs).events → changes ev1 = changes ev2 →
          AssignLine.assigned id dir = .assigned (newId y (top h y + 1)) p.dir ∨ AssignLine.assigned id dir ∈ printed ev2 →
          ∃ f ∈ (p, t) :: fs, Db.isDraft f.1.file = true ∧ f.1.dir = dir ∧
            (applyAll D ((writes (target p y (top h y + 1)) (rewriteText (newId y (top h y + 1)) t) ++ [Effect.remove p]) ++
              changes ev1)).read f.1 = none ∧
            ∃ y' n, id = newId y' n ∧
              (applyAll D ((writes (target p y (top h y + 1)) (rewriteText (newId y (top h y + 1)) t) ++ [Effect.remove p]) ++
                changes ev1)).read (target f.1 y' n) = some (rewriteText id f.2) := by
        intro ev2 hev2 hc hor
        rw [applyAll_append, hc]
        have hpre : changes ev2 <+: (assignFiles L (h.set y (top h y + 1)) fs).effects := by
          rw [← (assignEvents_run L g fs _).1]
          exact hev2.filterMap _
        rcases hor with heq | hm2
        · cases heq
          obtain ⟨c1, -, -⟩ := crash_core (L := L) (h.set y (top h y + 1)) fs D1 h1'.2 h2' h3'.2 _ hpre
          have hsub : ∀ q, q ∈ created (changes ev2) → q ∈ created (assignFiles L (h.set y (top h y + 1)) fs).effects :=
            fun q hq => (hpre.filterMap _).subset hq
          refine ⟨(p, t), by simp, hd, rfl, ?_, y, _, rfl, ?_⟩
          · refine (c1 p (fun hc => ?_) (fun f hf _ e => ?_)).trans hp1
            · exact h2 p (List.mem_cons_of_mem _ (hsub p hc)) (p, t) (by simp) rfl
            · exact h3'.1 (List.mem_map.mpr ⟨f, hf, e.symm⟩)
          · refine (c1 (target p y (top h y + 1)) (fun hc => ?_) (fun f hf _ e => ?_)).trans hq1
            · exact h1'.1 (List.mem_map.mpr ⟨_, hsub _ hc, rfl⟩)
            · exact h2 _ (by simp) f (List.mem_cons_of_mem _ hf) e
        · obtain ⟨f, hf, rest⟩ := ih _ D1 h1'.2 h2' h3'.2 ev2 hev2 id dir hm2
          exact ⟨f, List.mem_cons_of_mem _ hf, rest⟩
      cases g with
      | true => exact key ev1 he' rfl (.inr hm)
      | false =>
        cases ev1 with
        | nil => cases hm
        | cons x ev2 =>
          obtain ⟨rfl, he2⟩ := List.cons_prefix_cons.mp (show x :: ev2 <+: Event.line
            (.assigned (newId y (top h y + 1)) p.dir) :: (assignEvents L false (h.set y (top h y + 1)) fs).events from he')
          refine key ev2 he2 rfl ?_
          rcases List.mem_cons.mp (show AssignLine.assigned id dir ∈
            AssignLine.assigned (newId y (top h y + 1)) p.dir :: printed ev2 from hm) with e | hm
          · exact .inl e
          · exact .inr hm

/-- **C107 (where).**  `rustsec-admin assign-id` works at the path it is given, else in the current directory; there it
changes the disk as in C51 and C52.  It exits with status 0 if and only if at most one path is given, all drafts get
their IDs and, for the GitHub action, there is a title.  With two paths it panics and does nothing. -/
theorem C107_where (L : AdvLib) (sev : Cvss.Cvss → Severity) (at_ : Str → Disk) (github : Bool) (paths : List Str) :
    (2 ≤ paths.length → (assignCommand L sev at_ github paths).result = .panic ∧
      (assignCommand L sev at_ github paths).events = []) ∧
    (paths.length ≤ 1 → changes (assignCommand L sev at_ github paths).events =
      (assignIds L sev (at_ (pathOr paths))).effects) ∧
    ((assignCommand L sev at_ github paths).result = .ok () ↔
      paths.length ≤ 1 ∧ ∃ as, (assignIds L sev (at_ (pathOr paths))).result = .ok as ∧
        (github = true → ∃ t, Assign.title as = .ok t)) := by
  match paths with
  | [] =>
    obtain ⟨h1, h2, -⟩ := assignAt_run L sev (at_ ".".toList) ".".toList github
    exact ⟨fun h => absurd h (by simp), fun _ => h1, h2.trans (by simp [pathOr])⟩
  | [p] =>
    obtain ⟨h1, h2, -⟩ := assignAt_run L sev (at_ p) p github
    exact ⟨fun h => absurd h (by simp), fun _ => h1, h2.trans (by simp [pathOr])⟩
  | _ :: _ :: _ => exact ⟨fun _ => ⟨rfl, rfl⟩, fun h => absurd h (by simp), by simp [assignCommand]⟩

/-- **C107 (lines).**  A successful run prints how many advisories were loaded from where and then each assignment in order;
for the GitHub action it prints nothing but one line of at most 255 bytes, the title of C53. -/
theorem C107_lines (L : AdvLib) (sev : Cvss.Cvss → Severity) (at_ : Str → Disk) (github : Bool) (paths : List Str)
    (as : List Assignment) (h : (assignCommand L sev at_ github paths).result = .ok ())
    (ha : (assignIds L sev (at_ (pathOr paths))).result = .ok as) :
    (github = false ∧ ∃ db, (at_ (pathOr paths)).open L sev = .ok db ∧
      printed (assignCommand L sev at_ github paths).events =
        .loaded db.iter.length (pathOr paths) :: as.map fun a => .assigned a.id a.dir) ∨
    (github = true ∧ ∃ t, Assign.title as = .ok t ∧ byteLen t ≤ 255 ∧
      printed (assignCommand L sev at_ github paths).events = [.title t]) := by
  have aux : ∀ p, (assignAt L sev (at_ p) p github).result = .ok () →
      (assignIds L sev (at_ p)).result = .ok as →
      (github = false ∧ ∃ db, (at_ p).open L sev = .ok db ∧ printed (assignAt L sev (at_ p) p github).events =
        .loaded db.iter.length p :: as.map fun a => .assigned a.id a.dir) ∨
      (github = true ∧ ∃ t, Assign.title as = .ok t ∧ byteLen t ≤ 255 ∧
        printed (assignAt L sev (at_ p) p github).events = [.title t]) := by
    intro p h ha
    obtain ⟨db, ho, ⟨hg, hp⟩ | ⟨hg, t, ht, hp⟩⟩ := (assignAt_run L sev (at_ p) p github).2.2.1 as ha h
    · exact .inl ⟨hg, db, ho, hp⟩
    · exact .inr ⟨hg, t, ht, (C53_title as).1 t ht, hp⟩
  match paths with
  | [] => exact aux _ h ha
  | [p] => exact aux p h ha
  | _ :: _ :: _ => cases h

theorem told_at {L : AdvLib} {sev : Cvss.Cvss → Severity} {d : Disk} (path : Str) (g : Bool)
    (hy : ∀ db, d.open L sev = .ok db → YearsAgree db) (hd : (d.map Prod.fst).Nodup) (evs : List Event)
    (he : evs <+: (assignAt L sev d path g).events) (id dir : Str) (hm : AssignLine.assigned id dir ∈ printed evs) :
    Carried d (applyAll d (changes evs)) id dir := by
  unfold assignAt at he
  cases ho : d.open L sev with
  | err => rw [ho] at he; rw [List.prefix_nil.mp he] at hm; cases hm
  | panic => rw [ho] at he; rw [List.prefix_nil.mp he] at hm; cases hm
  | ok db =>
    simp only [ho] at he
    split at he
    · rw [List.prefix_nil.mp he] at hm; cases hm
    have hload : ∀ evs, evs <+: (if g then [] else [Event.line (.loaded db.iter.length path)]) →
        AssignLine.assigned id dir ∉ printed evs := by
      intro evs he hm
      have := (he.filterMap _).subset hm
      cases g
      · rcases List.mem_singleton.mp this
      · cases this
    cases hc : Highest.collect [] db.iter with
    | err => rw [hc] at he; exact absurd hm (hload _ he)
    | panic => rw [hc] at he; exact absurd hm (hload _ he)
    | ok hi =>
      simp only [hc] at he
      have core : ∀ evs1, evs1 <+: (assignEvents L g hi (d.collection .crates ++ d.collection .rust)).events →
          AssignLine.assigned id dir ∈ printed evs1 → Carried d (applyAll d (changes evs1)) id dir := by
        intro evs1 he1 hm1
        have hfresh : ∀ q ∈ created (assignFiles L hi (d.collection .crates ++ d.collection .rust)).effects,
            d.read q = none := by
          intro q hq
          obtain ⟨f, -, y, n, -, -, rfl, hn⟩ := created_above _ _ q hq
          exact (read_none_iff _ _).mpr (fresh_path ho (hy db ho) hc hn f.1)
        obtain ⟨f, hf, hdr, hdir, hgone, y, n, rfl, hread⟩ := told_core g _ hi d (created_nodup _ _)
          (fun q hq f hf e => by
            have := (read_none_iff d q).mp (hfresh q hq) f.2
            rw [e] at this
            exact this (mem_collections.mp hf)) (collections_nodup hd) evs1 he1 id dir hm1
        refine ⟨f, ?_, hdir, hgone, _, ?_, rewrite_renamed _ _ (newId_no_newline y n)⟩
        · rw [← drafts_eq]
          exact List.mem_filter.mpr ⟨hf, hdr⟩
        · rw [← hdir]; exact hread
      -- the line of the count comes first, that of the title last
      have strip : ∀ tail, (∀ ev, ev <+: tail → AssignLine.assigned id dir ∉ printed ev ∧ changes ev = []) →
          evs <+: (if g then [] else [Event.line (.loaded db.iter.length path)]) ++
            (assignEvents L g hi (d.collection .crates ++ d.collection .rust)).events ++ tail →
          Carried d (applyAll d (changes evs)) id dir := by
        intro tail ht hp
        rw [List.append_assoc] at hp
        rcases prefix_append_cases hp with hp1 | ⟨e1, rfl, hp1⟩
        · exact absurd hm (hload _ hp1)
        have hl := hload _ (List.prefix_refl _)
        have hch : changes (if g then [] else [Event.line (.loaded db.iter.length path)]) = [] := by
          cases g <;> rfl
        rw [printed_append] at hm
        have hm := (List.mem_append.mp hm).resolve_left hl
        rw [changes_append, hch, List.nil_append]
        rcases prefix_append_cases hp1 with hp2 | ⟨e2, rfl, hp2⟩
        · exact core e1 hp2 hm
        · rw [printed_append] at hm
          have hm := (List.mem_append.mp hm).resolve_right (ht e2 hp2).1
          rw [changes_append, (ht e2 hp2).2, List.append_nil]
          exact core _ (List.prefix_refl _) hm
      have ht0 : ∀ ev : List Event, ev <+: [] → AssignLine.assigned id dir ∉ printed ev ∧ changes ev = [] := by
        intro ev he; rw [List.prefix_nil.mp he]; exact ⟨by simp [printed], rfl⟩
      have ht1 : ∀ t, ∀ ev : List Event, ev <+: [.line (.title t)] →
          AssignLine.assigned id dir ∉ printed ev ∧ changes ev = [] := by
        intro t ev he
        constructor
        · intro hm
          rcases List.mem_singleton.mp ((he.filterMap _).subset hm)
        · exact List.prefix_nil.mp (he.filterMap _)
      split at he
      · exact strip [] ht0 (by rw [List.append_nil]; exact he)
      · exact strip [] ht0 (by rw [List.append_nil]; exact he)
      · split at he
        · rename_i hg
          split at he
          · exact strip _ (ht1 _) (by simpa [hg] using he)
          · exact strip [] ht0 (by simpa [hg] using he)
          · exact strip [] ht0 (by simpa [hg] using he)
        · rename_i hg
          exact strip [] ht0 (by simpa [hg] using he)

/-- **C107 (told).**  Stop `assign-id` at any moment, after the events `evs`.  Every assignment announced by then is complete:
the draft is gone and its text with the new ID is in the new file, whatever happens to later drafts. -/
theorem C107_told (L : AdvLib) (sev : Cvss.Cvss → Severity) (at_ : Str → Disk) (github : Bool) (paths : List Str)
    (hy : ∀ db, (at_ (pathOr paths)).open L sev = .ok db → YearsAgree db)
    (hd : ((at_ (pathOr paths)).map Prod.fst).Nodup) (evs : List Event)
    (he : evs <+: (assignCommand L sev at_ github paths).events) (id dir : Str)
    (hm : AssignLine.assigned id dir ∈ printed evs) :
    Carried (at_ (pathOr paths)) (applyAll (at_ (pathOr paths)) (changes evs)) id dir := by
  match paths with
  | [] => exact told_at _ github hy hd evs he id dir hm
  | [p] => exact told_at _ github hy hd evs he id dir hm
  | _ :: _ :: _ => rw [List.prefix_nil.mp he] at hm; cases hm

/-- The files of the examples at one path; nothing elsewhere. -/
def exAt (p : Str) : Disk := if p = "db".toList then exDisk else []

/-- The command on the example: two announcements, or one title; with two paths nothing happens. -/
example :
    printed (assignCommand assignLib noSev exAt false ["db".toList]).events =
      [.loaded 1 "db".toList, .assigned "RUSTSEC-2021-0002".toList "foo".toList,
       .assigned "RUSTSEC-2021-0003".toList "foo".toList] ∧
    printed (assignCommand assignLib noSev exAt true ["db".toList]).events =
      [.title "Assigned RUSTSEC-2021-0002 to foo, RUSTSEC-2021-0003 to foo".toList] ∧
    (assignCommand assignLib noSev exAt true ["db".toList]).result = .ok () ∧
    (assignCommand assignLib noSev exAt true ["db".toList, "db".toList]).result = .panic ∧
    (assignCommand assignLib noSev exAt false []).result = .err := by
  refine ⟨?_, ?_, ?_, ?_, ?_⟩ <;> decide +kernel

end Verif.Props
