import Verif.Props.Report

/-!
# C15, C16: nothing is reported twice

If no package is locked twice, no vulnerability and no warning of a report is repeated.
-/

namespace Verif.Props

open Verif.Semver Verif.Osv Verif.Lock Verif.Adv Verif.Db Verif.Rep Verif.Spec

theorem vulnerability_inj {t : Tree} {db : Database} (h : Database.open t = .ok db) {a b : Advisory} (ha : a ∈ db.iter)
    (hb : b ∈ db.iter) {p q : Package} (e : Vulnerability.new a p = Vulnerability.new b q) : a = b ∧ p = q := by
  have hid : a.metadata.id = b.metadata.id := congrArg (fun v => v.advisory.id) e
  have hp : p = q := congrArg (·.package) e
  refine ⟨?_, hp⟩
  have h1 := (C10_get_iff t db h a.metadata.id a).mpr ⟨ha, rfl⟩
  have h2 := (C10_get_iff t db h a.metadata.id b).mpr ⟨hb, hid.symm⟩
  rw [h1] at h2
  exact Option.some.inj h2

theorem scan_nodup (t : Tree) (db : Database) (h : Database.open t = .ok db) (packages : List Package)
    (hn : packages.Nodup) (q : Query) (vs : List Vulnerability) (hv : db.queryVulnerabilities packages q = some vs) :
    vs.Nodup := by
  rw [scan_eq t db h] at hv
  cases hv
  have hit : db.iter.Nodup := List.Nodup.of_map _ (C10_ids_unique t db h)
  rw [List.nodup_flatMap]
  refine ⟨fun p _ => ?_, ?_⟩
  · refine List.Nodup.map_on (fun a ha b hb e => ?_) (hit.filter _)
    exact (vulnerability_inj h (List.mem_of_mem_filter ha) (List.mem_of_mem_filter hb) e).1
  · refine (hn.filter _).imp_of_mem ?_
    intro p q _ _ hne v hv hv'
    obtain ⟨a, ha, rfl⟩ := List.mem_map.mp hv
    obtain ⟨b, hb, e⟩ := List.mem_map.mp hv'
    exact hne (vulnerability_inj h (List.mem_of_mem_filter ha) (List.mem_of_mem_filter hb) e.symm).2

/-- All warnings. -/
def allWarnings (w : WarningInfo) : List Warning := w.flatMap (·.2)

theorem push_perm (w : Warning) : ∀ acc : WarningInfo, (allWarnings (acc.push w)).Perm (w :: allWarnings acc)
  | [] => by simp [WarningInfo.push, allWarnings]
  | (k, ws) :: r => by
    unfold WarningInfo.push
    split
    · unfold allWarnings
      rw [List.flatMap_cons, List.flatMap_cons, List.append_assoc]
      exact List.perm_middle
    · unfold allWarnings
      rw [List.flatMap_cons, List.flatMap_cons]
      exact ((push_perm w r).append_left ws).trans List.perm_middle

/-- The warning a finding gives, if any. -/
def warningOf (s : Settings) (v : Vulnerability) : Option Warning :=
  match warnStep s [] v with
  | some [(_, [w])] => some w
  | _ => none

theorem warnStep_cases (s : Settings) (v : Vulnerability) (acc out : WarningInfo) (h : warnStep s acc v = some out) :
    (warningOf s v = none ∧ out = acc) ∨
    ∃ w, warningOf s v = some w ∧ out = acc.push w ∧ w.advisory = some v.advisory ∧ w.package = v.package ∧
      w.affected = v.affected ∧ w.versions = some v.versions := by
  unfold warningOf
  unfold warnStep at h ⊢
  split at h
  · rename_i h1
    rw [if_pos h1]; cases h; exact .inl ⟨rfl, rfl⟩
  · rename_i h1
    rw [if_neg h1]
    split at h
    · rename_i h2
      rw [if_pos h2]; cases h; exact .inl ⟨rfl, rfl⟩
    · rename_i h2
      rw [if_neg h2]
      split at h
      · cases h
      · rename_i i hi
        split at h
        · rename_i hk
          cases h; exact .inl ⟨by simp only [hi, hk], rfl⟩
        · rename_i k hk
          cases h
          exact .inr ⟨_, rfl, rfl, rfl, rfl, rfl, rfl⟩

theorem fold_perm (s : Settings) : ∀ (vs : List Vulnerability) (acc out : WarningInfo),
    vs.foldlM (warnStep s) acc = some out →
    (allWarnings out).Perm (allWarnings acc ++ vs.filterMap (warningOf s))
  | [], acc, out, h => by cases h; simp
  | v :: vs, acc, out, h => by
    rw [List.foldlM_cons] at h
    cases hs : warnStep s acc v with
    | none => rw [hs] at h; cases h
    | some acc' =>
      rw [hs] at h
      have ih := fold_perm s vs acc' out h
      rcases warnStep_cases s v acc acc' hs with ⟨h1, rfl⟩ | ⟨w, h1, rfl, -⟩
      · rw [List.filterMap_cons_none h1]; exact ih
      · rw [List.filterMap_cons_some h1]
        refine ih.trans ?_
        refine ((push_perm w acc).append_right _).trans ?_
        rw [List.cons_append]
        exact List.perm_middle.symm

/-- **C15, C16 (once).**  If no package is locked twice, a report lists no vulnerability twice, and no warning. -/
theorem C15_once (t : Tree) (db : Database) (h : Database.open t = .ok db) (packages : List Package)
    (hn : packages.Nodup) (s : Settings) (r : Report) (hr : Report.generate db packages s = some r) :
    r.vulnerabilities.list.Nodup ∧ (r.warnings.flatMap (·.2)).Nodup := by
  unfold Report.generate at hr
  cases hv : db.queryVulnerabilities packages s.query with
  | none => rw [hv] at hr; cases hr
  | some vs =>
    rw [hv] at hr
    cases hw : findWarnings db packages s with
    | none => rw [hw] at hr; cases hr
    | some w =>
      rw [hw] at hr
      cases hr
      refine ⟨(scan_nodup t db h packages hn _ vs hv).filter _, ?_⟩
      unfold findWarnings at hw
      cases hv' : db.queryVulnerabilities packages { s.query with informational := some true } with
      | none => rw [hv'] at hw; cases hw
      | some ws =>
        rw [hv'] at hw
        have hp := fold_perm s ws [] w hw
        have hnd := scan_nodup t db h packages hn _ ws hv'
        refine hp.symm.nodup_iff.mp ?_
        rw [show allWarnings [] = [] from rfl, List.nil_append]
        refine hnd.filterMap fun u v x hu hv => ?_
        have key : ∀ u, x ∈ warningOf s u → x.advisory = some u.advisory ∧ x.package = u.package ∧
            x.affected = u.affected ∧ x.versions = some u.versions := by
          intro u hu
          cases hs : warnStep s [] u with
          | none =>
            have : warningOf s u = none := by unfold warningOf; rw [hs]
            rw [this] at hu; cases hu
          | some o =>
            rcases warnStep_cases s u [] o hs with ⟨e, -⟩ | ⟨w, e, -, q⟩
            · rw [e] at hu; cases hu
            · rw [e] at hu; cases hu; exact q
        obtain ⟨a1, a2, a3, a4⟩ := key u hu
        obtain ⟨b1, b2, b3, b4⟩ := key v hv
        cases u; cases v
        rw [a1] at b1; rw [a2] at b2; rw [a3] at b3; rw [a4] at b4
        cases b1; cases b2; cases b3; cases b4; rfl

/-- The example lockfile has one package. -/
example : [exPackage gitIndexSource].Nodup ∧
    ∃ r, Report.generate exDb [exPackage gitIndexSource] { informationalWarnings := [.unmaintained] } = some r :=
  ⟨by simp, (C15_vulnerability_list exTree exDb exTree_opens exDb_validated _ _).imp fun _ h => h.1⟩

end Verif.Props
