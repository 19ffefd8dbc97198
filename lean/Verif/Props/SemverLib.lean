import Verif.Spec.SemverLib
import Verif.Props.SemverText
import Verif.Props.AuditSarif
import Verif.Props.LockText

/-!
# C90: what was assumed of the `semver` crate's texts holds of its grammar
-/

namespace Verif.Props

open Verif Verif.Semver Verif.Osv Verif.Lock Verif.Adv Verif.Rep Verif.RepJson Verif.Spec Verif.Db Verif.AdminLint

theorem isWs_idChar {c : Char} (h : isIdChar c = true) : isWs c = false := by
  have hn : c.toNat = c.val.toNat := rfl
  simp only [isIdChar, Char.isAlphanum, Char.isAlpha, Char.isUpper, Char.isLower, Char.isDigit, Bool.or_eq_true,
    Bool.and_eq_true, decide_eq_true_eq, UInt32.le_iff_toNat_le, ge_iff_le] at h
  have hb : (48 ≤ c.toNat ∧ c.toNat ≤ 122) ∨ c.toNat = 45 := by
    rcases h with ((h | h) | h) | rfl
    · left; rw [hn]; have h1 := h.1; have h2 := h.2; simp at h1 h2; omega
    · left; rw [hn]; have h1 := h.1; have h2 := h.2; simp at h1 h2; omega
    · left; rw [hn]; have h1 := h.1; have h2 := h.2; simp at h1 h2; omega
    · right; rfl
  have : ¬ isWs c = true := by
    simp only [isWs, Bool.or_eq_true, decide_eq_true_eq, List.mem_cons, List.not_mem_nil, or_false]
    omega
  simpa using this

theorem version_chars {v : Version} (h : v.Valid) {c : Char} (hc : c ∈ v.text) :
    isIdChar c = true ∨ c = '.' ∨ c = '+' := by
  have hnum : ∀ n, c ∈ showNat n → isIdChar c = true := fun n h => isIdChar_of_isDigit (isDigit_of_mem_showNat h)
  have hpre : c ∈ preText v.pre → isIdChar c = true ∨ c = '.' ∨ c = '+' := by
    intro h'
    unfold preText at h'
    split at h'
    · cases h'
    · rcases List.mem_cons.mp h' with rfl | h'
      · exact .inl (by decide)
      · rcases mem_joinC h' with rfl | ⟨p, hp, hcp⟩
        · simp
        · obtain ⟨i, hi, rfl⟩ := List.mem_map.mp hp
          exact .inl (ident_chars (h.pre i hi) c hcp)
  have hbuild : c ∈ buildText v.build → isIdChar c = true ∨ c = '.' ∨ c = '+' := by
    intro h'
    unfold buildText at h'
    split at h'
    · cases h'
    · rcases List.mem_cons.mp h' with rfl | h'
      · simp
      · rcases mem_joinC h' with rfl | ⟨p, hp, hcp⟩
        · simp
        · obtain ⟨i, hi, rfl⟩ := List.mem_map.mp hp
          exact .inl (buildId_chars (h.build i hi) c hcp)
  unfold Version.text at hc
  simp only [List.mem_append, List.mem_cons] at hc
  rcases hc with hc | rfl | hc | rfl | hc | hc | hc
  · exact .inl (hnum _ hc)
  · simp
  · exact .inl (hnum _ hc)
  · simp
  · exact .inl (hnum _ hc)
  · exact hpre hc
  · exact hbuild hc

theorem version_word {v : Version} (h : v.Valid) : IsWord v.text := by
  refine ⟨?_, fun c hc => ?_⟩
  · unfold Version.text
    simp [showNat_ne_nil]
  · rcases version_chars h hc with hc | rfl | rfl
    · exact isWs_idChar hc
    · decide
    · decide

/-- **Property C90** (versions in lockfiles): the versions that a lockfile can hold without loss are exactly the values of
the type `semver::Version`. -/
theorem C90_version_ok (U : UrlLib) (v : Version) : VersionOk (semverCodec U) v ↔ v.Valid := by
  constructor
  · intro h
    exact ((C90_version _ _).mp h.1).1
  · intro h
    exact ⟨(C90_version _ _).mpr ⟨h, rfl⟩, version_word h⟩

/-- The parts of a lockfile that was read. -/
theorem parse_read {C : Codec} {d : LockDoc} {l : Lockfile} (h : Lockfile.parse C d = .ok l) {p : Package}
    (hp : p ∈ l.packages) :
    Read C p.version p.source ∧ (∀ d ∈ p.dependencies, Read C d.version d.source) ∧
      ∀ d, p.replace = some d → Read C d.version d.source := by
  unfold Lockfile.parse at h
  obtain ⟨raw, hraw, h⟩ := bindOk h
  unfold LockDoc.read at hraw
  obtain ⟨ps, hps, hraw⟩ := bindOk hraw
  obtain ⟨rt, -, hraw⟩ := bindOk hraw
  obtain ⟨pt, -, hraw⟩ := bindOk hraw
  cases hraw
  unfold EncLockfile.decode at h
  obtain ⟨v, -, h⟩ := bindOk h
  obtain ⟨qs, hqs, h⟩ := bindOk h
  obtain ⟨rt', -, h⟩ := bindOk h
  cases h
  have hall : ∀ p ∈ ps, EncRead C p := fun p hp => by
    obtain ⟨x, -, hx⟩ := forall2_right ((mapList_iff _ _ _).mp hps) p hp
    exact pkgDoc_read hx
  obtain ⟨e, he, hr⟩ := forall2_right ((mapList_iff _ _ _).mp hqs) p hp
  obtain ⟨h1, -, h3, h4⟩ := decodePackage_read (hall e he) hall hr
  exact ⟨h1, h3, h4⟩

/-- **Property C90** (lockfiles that are read): every version in them, of packages and of dependencies, can be written and
read again. -/
theorem C90_lockfile (U : UrlLib) (toml : Str → Option Toml.Table) (s : Str) (l : Lockfile)
    (h : Lockfile.fromText (semverCodec U) toml s = .ok l) : ∀ p ∈ l.packages,
      VersionOk (semverCodec U) p.version ∧ (∀ d ∈ p.dependencies, VersionOk (semverCodec U) d.version) ∧
      ∀ d, p.replace = some d → VersionOk (semverCodec U) d.version := by
  intro p hp
  unfold Lockfile.fromText at h
  split at h
  · cases h
  · obtain ⟨d, -, h⟩ := bindOk h
    obtain ⟨h1, h2, h3⟩ := parse_read h hp
    have hv : ∀ {v : Version} {x : Option SourceId}, Read (semverCodec U) v x → VersionOk (semverCodec U) v := by
      rintro v x ⟨⟨t, ht⟩, -⟩
      exact (C90_version_ok U v).mpr ((C90_version t v).mp ht).1
    exact ⟨hv h1, fun d hd => hv (h2 d hd), fun d hd => hv (h3 d hd)⟩

theorem semver_reqWF {L : AdvLib} (hL : UsesSemver L) : ∀ s r, L.req s = some r → ReqWF r := by
  intro s r h c hc
  rw [hL] at h
  exact ((C90_req_valid h).comparators c hc).wf

/-- **Property C90** (libraries of a report): only the texts of URLs and of times remain assumed. -/
theorem C90_lawful {L : ReportLib} (hL : ReportUsesSemver L) (hu : UrlLib.Lawful L.adv.url)
    (ht : ∀ t s, L.showTime t = some s → L.parseTime s = some t) : ReportLib.Lawful L := by
  refine ⟨hu, ?_, ?_, ht⟩
  · intro s r h
    rw [hL.req] at h ⊢
    rw [hL.showReq]
    exact C90_req_text (C90_req_valid h)
  · intro s v h
    rw [hL.parseVersion] at h ⊢
    rw [hL.showVersion]
    exact (C90_version _ _).mpr ⟨((C90_version _ _).mp h).1, rfl⟩

/-- **Property C90** (advisories that are read): whether a version is vulnerable can always be told, and it is exactly if no
requirement of `patched` and `unaffected` covers it. -/
theorem C90_vulnerable (L : AdvLib) (hL : UsesSemver L) (text : Str) (a : AdvisoryFile)
    (h : AdvisoryFile.fromStr L text = .ok a) (w : Version) :
    ∃ b, a.versions.isVulnerable w = .ok b ∧
      (b = true ↔ ∀ r ∈ a.versions.patched ++ a.versions.unaffected, ¬ Covers r w) :=
  C68_vulnerable L (semver_reqWF hL) text a h w

/-- **Property C90** (databases that are loaded): the versions of every advisory were checked when it was read. -/
theorem C90_validated {L : AdvLib} (hL : UsesSemver L) {sev : Cvss.Cvss → Severity} {ch : Checkout} {db : Database}
    (h : Database.open (ch.tree L sev) = .ok db) : ∀ a ∈ db.iter, Validated a :=
  loaded_validated (semver_reqWF hL) h

/-- **Property C90** (two texts of one version): there are none. -/
theorem C90_one_text {s t : Str} {v : Version} (hs : readVersion s = some v) (ht : readVersion t = some v) : s = t := by
  rw [C90_version] at hs ht
  rw [hs.2, ht.2]

/-! ### Examples -/

/-- A version with everything. -/
def fullVersion : Version := ⟨1, 20, 0, [.alpha "rc-x".toList, .num 10], [.num 7 3, .alpha "sha9".toList]⟩

theorem fullVersion_text : fullVersion.text = "1.20.0-rc-x.10+007.sha9".toList := by decide +kernel

example : readVersion "1.20.0-rc-x.10+007.sha9".toList = some fullVersion := by decide +kernel

example : fullVersion.Valid :=
  ((C90_version "1.20.0-rc-x.10+007.sha9".toList fullVersion).mp (by decide +kernel)).1

/-- Texts that are not versions. -/
example : ["", "1", "1.2", "1.2.3.4", "01.2.3", "1.2.3-", "1.2.3-01", "1.2.3-a..b", "1.2.3+", " 1.2.3", "1.2.3 ", "v1.2.3",
    "1.2.18446744073709551616", "1.2.3-a+b+c", "1.x.3"].all (fun s => (readVersion s.toList).isNone) = true := by
  decide +kernel

/-- Texts that are, and the largest number. -/
example : ["0.0.0", "1.2.18446744073709551615", "1.2.3-0", "1.2.3--", "1.2.3-0a.b", "1.2.3+00"].all
    (fun s => (readVersion s.toList).isSome) = true := by decide +kernel

/-- Requirements and their written form. -/
example : [("1.2", "^1.2"), ("  >= 1.2.3 ,<2", ">=1.2.3, <2"), ("*", "*"), ("1.*", "1.*"), ("1.2.x", "1.2.*"),
    ("1.*.*", "1.*"), ("= 1.0.0-rc.1+build", "=1.0.0-rc.1"), ("~0.3", "~0.3"), (">=1.*", ">=1"), ("<= 0.0.1", "<=0.0.1"),
    (" X ", "*"), (">1", ">1")].all
    (fun p => decide ((readReq p.1.toList).map VersionReq.text = some p.2.toList)) = true := by decide +kernel

/-- Texts that are not requirements. -/
example : ["", "1,", ",1", "1 2", ">=", "> =1", "1.*.3", "*, 1", "1.2-a", "!1", "==1", "1.2.3-", "01"].all
    (fun s => (readReq s.toList).isNone) = true := by decide +kernel

/-- The bound on the number of comparators. -/
example : (readReq (comparatorsText (List.replicate 32 ⟨.greater, 1, none, none, []⟩))).isSome = true ∧
    (readReq (comparatorsText (List.replicate 33 ⟨.greater, 1, none, none, []⟩))).isNone = true := by decide +kernel

end Verif.Props
