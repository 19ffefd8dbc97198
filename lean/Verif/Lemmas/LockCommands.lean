import Verif.Spec.LockCommands
import Verif.Props.LockMeaning
import Verif.Props.LockCli
import Verif.Props.SemverLib

/-!
# Lemmas for C100
-/

namespace Verif.Props

open Verif Verif.Lock Verif.LockCli Verif.Semver Verif.Spec Verif.Toml
open Verif.Audit (Mandatory Optionally Defaulting IsList)

/-- The version was read from a text. -/
def FromText (C : Codec) (v : Version) : Prop := ∃ x, C.parseVersion x = some v

/-- The source, if there is one, was read from a text. -/
def SourceRead (C : Codec) (o : Option SourceId) : Prop := ∀ s, o = some s → ∃ x, SourceId.fromUrl C.url x = .ok s

private theorem mandatory_text {C : Codec} {R : Str → Version → Prop} {o : Option Value} {v : Version}
    (h : Mandatory (Text R) o v) : ∃ s, R s v := by
  obtain ⟨_, -, s, -, hs⟩ := h
  exact ⟨s, hs⟩

private theorem optional_text {α : Type} {R : Str → α → Prop} {o : Option Value} {x : Option α}
    (h : Optionally (Text R) o x) : ∀ a, x = some a → ∃ s, R s a := by
  intro a ha
  rcases h with ⟨-, h⟩ | ⟨_, y, -, h, s, -, hs⟩
  · rw [ha] at h; cases h
  · rw [ha] at h; cases h; exact ⟨s, hs⟩

private theorem words_word {s : Str} {ws : List Str} (h : Words s ws) : ∀ w ∈ ws, Word w := by
  induction h with
  | blank => intro w hw; cases hw
  | last _ hw => intro w hm; rw [List.mem_singleton] at hm; exact hm ▸ hw
  | more _ hw _ _ ih =>
    intro w hm
    rcases List.mem_cons.mp hm with rfl | hm
    · exact hw
    · exact ih w hm

private theorem word_isWord {w : Str} (h : Word w) : Spec.IsWord w := ⟨h.1, fun c hc => (not_white_iff c).2 (h.2 c hc)⟩

/-- A reference that was read. -/
private structure RefRead (C : Codec) (d : EncDependency) : Prop where
  name : Spec.IsWord d.name
  version : ∀ v, d.version = some v → FromText C v
  source : SourceRead C d.source

private theorem reference_read {C : Codec} {s : Str} {d : EncDependency} (h : ReferenceOf C s d) : RefRead C d := by
  cases h with
  | name h => exact ⟨word_isWord (words_word h _ (by simp)), fun v hv => (by cases hv), fun s hs => (by cases hs)⟩
  | version h hv => exact ⟨word_isWord (words_word h _ (by simp)), fun v hv' => (by cases hv'; exact ⟨_, hv⟩), fun s hs => (by cases hs)⟩
  | source h hv hs =>
    exact ⟨word_isWord (words_word h _ (by simp)), fun v hv' => (by cases hv'; exact ⟨_, hv⟩),
      fun s hs' => by cases hs'; exact ⟨_, (source_iff _ _ _).2 hs⟩⟩

/-- A package table that was read. -/
private structure TableRead (C : Codec) (t : EncPackage) : Prop where
  version : FromText C t.version
  source : SourceRead C t.source
  checksum : ∀ c, t.checksum = some c → c.length = 32
  dependencies : ∀ d ∈ t.dependencies, RefRead C d
  replace : ∀ d, t.replace = some d → RefRead C d

private theorem table_read {C : Codec} {v : Value} {t : EncPackage} (h : IsPackage C v t) : TableRead C t := by
  obtain ⟨_, -, -, hv, hs, hc, hd, hr⟩ := h
  refine ⟨mandatory_text (C := C) hv, fun s hs' => ?_, fun c hc' => ?_, fun d hd' => ?_, fun d hd' => ?_⟩
  · obtain ⟨x, hx⟩ := optional_text hs s hs'
    exact ⟨x, (source_iff _ _ _).2 hx⟩
  · obtain ⟨x, hx⟩ := optional_text hc c hc'
    exact hx.2
  · rcases hd with ⟨-, hd⟩ | ⟨_, -, vs, -, hf⟩
    · rw [hd] at hd'; cases hd'
    · obtain ⟨w, -, s, -, hs⟩ := forall2_right hf d hd'
      exact reference_read hs
  · obtain ⟨x, hx⟩ := optional_text hr d hd'
    exact reference_read hx

private theorem stands_read {C : Codec} {ps : List EncPackage} (hps : ∀ p ∈ ps, TableRead C p) {d : EncDependency}
    (hd : RefRead C d) {x : Dependency} (h : StandsFor ps d x) :
    Spec.IsWord x.name ∧ FromText C x.version ∧ SourceRead C x.source := by
  cases h with
  | listed hp hs hf hb =>
    have := hps _ (hp ▸ List.mem_append_right _ (List.mem_cons_self ..))
    exact ⟨hf.1 ▸ hd.name, this.version, this.source⟩
  | unlisted h hv => exact ⟨hd.name, hd.version _ hv, hd.source⟩

/-- A dependency that was read. -/
structure DepRead (C : Codec) (d : Dependency) : Prop where
  name : Spec.IsWord d.name
  version : FromText C d.version
  source : SourceRead C d.source

/-- A package that was read. -/
structure PkgRead (C : Codec) (p : Package) : Prop where
  version : FromText C p.version
  source : SourceRead C p.source
  checksum : ∀ c, p.checksum = some c → c.length = 32
  dependencies : ∀ d ∈ p.dependencies, DepRead C d
  replace : ∀ d, p.replace = some d → DepRead C d

private theorem means_read {C : Codec} {ps : List EncPackage} (hps : ∀ p ∈ ps, TableRead C p) {t : EncPackage}
    (ht : TableRead C t) {o : Option Checksum} (ho : ∀ c, o = some c → c.length = 32) {p : Package} (h : Means ps t o p) :
    PkgRead C p := by
  refine ⟨h.version ▸ ht.version, h.source ▸ ht.source, h.checksum ▸ ho, fun d hd => ?_, fun d hd => ?_⟩
  · obtain ⟨e, he, hs⟩ := forall2_right h.dependencies d hd
    obtain ⟨h1, h2, h3⟩ := stands_read hps (ht.dependencies e he) hs
    exact ⟨h1, h2, h3⟩
  · rcases h.replace with ⟨-, hr⟩ | ⟨e, x, he, hr, hs⟩
    · rw [hd] at hr; cases hr
    · rw [hd] at hr; cases hr
      obtain ⟨h1, h2, h3⟩ := stands_read (ps := []) (fun _ h => by cases h) (ht.replace e he) hs
      exact ⟨h1, h2, h3⟩

/-- What a lockfile that was read from a text has. -/
theorem lockfile_read {C : Codec} {text : Str} {l : Lockfile} (h : LockfileOf C text l) :
    (∀ p ∈ l.packages, PkgRead C p) ∧
    ∀ d ∈ l.patch, FromText C d.version ∧ SourceRead C d.source := by
  obtain ⟨doc, ps, root, -, hps, -, -, hpatch, -, hf, -⟩ := h
  have hall : ∀ p ∈ ps, TableRead C p := by
    intro p hp
    rcases hps with ⟨-, e⟩ | ⟨_, -, vs, -, hvs⟩
    · rw [e] at hp; cases hp
    · obtain ⟨w, -, hw⟩ := forall2_right hvs p hp
      exact table_read hw
  refine ⟨fun p hp => ?_, fun d hd => ?_⟩
  · obtain ⟨t, ht, hm⟩ := forall2_right hf p hp
    rcases hm with ⟨-, c, hc, hm⟩ | ⟨-, hm⟩
    · refine means_read (ps := []) (fun _ h => by cases h) (hall t ht) (fun c' hc' => ?_) hm
      cases hc with
      | missing => cases hc'
      | found _ _ _ hs => cases hc'; exact hs.2
      | unreadable => cases hc'
    · exact means_read hall (hall t ht) (hall t ht).checksum hm
  · rcases hpatch with ⟨-, e⟩ | ⟨_, -, t, -, _, -, vs, -, hvs⟩
    · rw [e] at hd; cases hd
    · obtain ⟨w, -, _, -, -, hv, hs⟩ := forall2_right hvs d hd
      refine ⟨mandatory_text (C := C) hv, fun s hs' => ?_⟩
      obtain ⟨x, hx⟩ := optional_text hs s hs'
      exact ⟨x, (source_iff _ _ _).2 hx⟩

end Verif.Props
