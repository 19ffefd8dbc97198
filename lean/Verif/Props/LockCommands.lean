import Verif.Lemmas.LockCommands
import Verif.Props.LockText

/-!
# C100: `cargo lock` on the text of a lockfile
-/

namespace Verif.Props

open Verif Verif.Lock Verif.LockCli Verif.Semver Verif.Spec

/-! ### Sources -/

private theorem ws_of {c : Char} (h : ¬ White c) : isWs c = false := (not_white_iff c).2 h

private theorem plain_ref {s : SourceId} (hs : PlainName s) {r : GitReference} (hr : s.kind = .git r) :
    ∀ c ∈ refText r, ' ' < c ∧ ¬ White c ∧ c ∉ ['#', '&', '+', '%'] := by
  cases r with
  | defaultBranch => intro c hc; cases hc
  | tag x => exact hs x (.inr (.inl hr))
  | branch x => exact hs x (.inl hr)
  | rev x => exact hs x (.inr (.inr hr))

private theorem pretty_text (r : GitReference) : r.pretty false = none ∨
    ∃ k ∈ ["branch=".toList, "tag=".toList, "rev=".toList], r.pretty false = some (k ++ refText r) := by
  cases r with
  | defaultBranch => exact .inl rfl
  | branch x => exact .inr ⟨_, by simp, rfl⟩
  | tag x => exact .inr ⟨_, by simp, rfl⟩
  | rev x => exact .inr ⟨_, by simp, rfl⟩

/-- A source that was read can be written, if its format can hold the names of its branches. -/
theorem source_writable {U : UrlLib} (hU : UrlLib.Lawful U) {x : Str} {s : SourceId} (h : SourceId.fromUrl U x = .ok s)
    (hk : s.kind ≠ .path) (hw : ∀ c ∈ s.url.text, ¬ White c) (enc : Bool) (hp : enc = false → PlainName s) :
    SourceOk (semverCodec U) enc s := by
  have hw' : ∀ c ∈ s.url.text, isWs c = false := fun c hc => ws_of (hw c hc)
  have h4 := C28_source_ok_v4 (C := semverCodec U) hU h hk hw'
  cases enc with
  | true => exact h4
  | false =>
    have hp := hp rfl
    refine ⟨hk, C26_display_round_trip hU h fun r hr => ⟨fun c hc => ?_, fun _ c hc => ?_⟩, ?_⟩
    · obtain ⟨h1, -, h3⟩ := plain_ref hp hr c hc
      simp only [List.mem_cons, List.not_mem_nil, or_false, not_or] at h3 ⊢
      refine ⟨h3.1, h3.2.1, h3.2.2.1, h3.2.2.2, ?_, ?_, ?_⟩ <;> rintro rfl <;> exact absurd h1 (by decide)
    · exact (plain_ref hp hr c (List.mem_of_getLast? hc)).1
    · have h4 := h4.2.2
      intro c hc
      cases hkk : s.kind with
      | git r =>
        have e4 : s.asUrl true = "git+".toList ++ s.url.text ++ optPart '?' (r.pretty true) ++ optPart '#' s.precise := by
          unfold SourceId.asUrl; rw [hkk]
        have e : s.asUrl false = "git+".toList ++ s.url.text ++ optPart '?' (r.pretty false) ++ optPart '#' s.precise := by
          unfold SourceId.asUrl; rw [hkk]
        rw [e] at hc
        rw [e4] at h4
        rcases List.mem_append.mp hc with hc | hc
        · rcases List.mem_append.mp hc with hc | hc
          · exact h4 c (List.mem_append_left _ (List.mem_append_left _ hc))
          · rcases pretty_text r with hn | ⟨k, hk', hn⟩
            · rw [hn] at hc; cases hc
            · rw [hn] at hc
              rcases List.mem_cons.mp hc with rfl | hc
              · decide
              · rcases List.mem_append.mp hc with hc | hc
                · simp only [List.mem_cons, List.not_mem_nil, or_false] at hk'
                  have hb : ∀ k ∈ ["branch=".toList, "tag=".toList, "rev=".toList], ∀ c ∈ k, isWs c = false := by decide
                  exact hb k (by simpa using hk') c hc
                · exact ws_of (plain_ref hp hkk c hc).2.1
        · exact h4 c (List.mem_append_right _ hc)
      | path => exact absurd hkk hk
      | registry => refine h4 c ?_; unfold SourceId.asUrl at hc ⊢; rw [hkk] at hc ⊢; exact hc
      | sparseRegistry => refine h4 c ?_; unfold SourceId.asUrl at hc ⊢; rw [hkk] at hc ⊢; exact hc
      | localRegistry => refine h4 c ?_; unfold SourceId.asUrl at hc ⊢; rw [hkk] at hc ⊢; exact hc
      | directory => refine h4 c ?_; unfold SourceId.asUrl at hc ⊢; rw [hkk] at hc ⊢; exact hc

/-! ### Lockfiles -/

private theorem version_fine {U : UrlLib} {v : Version} (h : FromText (semverCodec U) v) : VersionOk (semverCodec U) v := by
  obtain ⟨x, hx⟩ := h
  exact (C90_version_ok U v).mpr ((C90_version x v).mp hx).1

private theorem key_shown (C : Codec) (p : Package) : checksumKey C (Dependency.ofPackage p) =
    "checksum ".toList ++ p.name ++ " ".toList ++ C.showVersion p.version ++
      (match p.source with | some s => " (".toList ++ s.asUrl false ++ ")".toList | none => []) := by
  unfold checksumKey Dependency.show Dependency.ofPackage checksumPrefix parenPart
  cases p.source <;> simp

/-- A lockfile that was read and is as Cargo makes them is well-formed in the other formats. -/
theorem translated_wf {U : UrlLib} (hU : UrlLib.Lawful U) {text : Str} {l : Lockfile} (h : LockfileOf (semverCodec U) text l)
    (hm : CargoMade (semverCodec U) l) (v : ResolveVersion) (hv : CanHold v l) : WellFormed (semverCodec U) (translated (semverCodec U) l v) := by
  obtain ⟨hp, hpatch⟩ := lockfile_read h
  have hs : ∀ s, SourceIn l s → (∃ x, SourceId.fromUrl U x = .ok s) → SourceOk (semverCodec U) v.encoded s := by
    rintro s hin ⟨x, hx⟩
    refine source_writable hU hx (hm.sources s hin).1 (hm.sources s hin).2 _ fun he => ?_
    rcases hv with ⟨rfl, -⟩ | ⟨-, hv⟩
    · cases he
    · exact hv s hin
  have hdep : ∀ p ∈ l.packages, ∀ d, d ∈ p.dependencies ∨ p.replace = some d → DependencyOk (semverCodec U) v.encoded d := by
    intro p hpm d hd
    have hr : DepRead (semverCodec U) d := by
      rcases hd with hd | hd
      · exact (hp p hpm).dependencies d hd
      · exact (hp p hpm).replace d hd
    refine ⟨hr.name, version_fine hr.version, fun s hs' => hs s ?_ (hr.source s hs')⟩
    rcases hd with hd | hd
    · exact .inl ⟨p, hpm, .inr (.inl ⟨d, hd, hs'⟩)⟩
    · exact .inl ⟨p, hpm, .inr (.inr ⟨d, hd, hs'⟩)⟩
  refine ⟨?_, rfl, fun p hpm => ⟨version_fine (hp p hpm).version, fun s hs' => hs s ?_ ((hp p hpm).source s hs'),
    (hp p hpm).checksum, fun d hd => hdep p hpm d (.inl hd), fun r hr => ⟨hm.replaced p hpm (by rw [hr]; simp), hdep p hpm r (.inr hr)⟩⟩,
    fun p hpm d hd => ⟨?_, ?_⟩, fun d hd => ⟨version_fine (hpatch d hd).1, fun s hs' => ?_⟩, fun p hpm e he => ?_, fun hv2 e he hpre => ?_⟩
  · show v ≠ .v1
    rcases hv with ⟨rfl, -⟩ | ⟨rfl | rfl, -⟩ <;> simp
  · exact .inl ⟨p, hpm, .inl hs'⟩
  · obtain ⟨q, hq, rfl⟩ := hm.complete p hpm d hd
    exact ⟨q, hq, rfl, rfl, rfl⟩
  · by_cases hn : d.source = none
    · refine .inr fun q hq => ?_
      have h1 := List.mem_of_find?_eq_some hq
      have h2 := List.find?_some hq
      simp only [decide_eq_true_eq] at h2
      exact hm.unmixed p hpm d hd hn q h1 h2.1 h2.2
    · exact .inl hn
  · obtain ⟨x, hx⟩ := (hpatch d hd).2 s hs'
    have hin : SourceIn l s := .inr ⟨d, hd, hs'⟩
    refine source_writable hU hx (hm.sources s hin).1 (hm.sources s hin).2 _ fun _ => ?_
    rcases hv with ⟨-, hv⟩ | ⟨-, hv⟩
    · exact hv d hd s hs'
    · exact hv s hin
  · have := (List.mem_filter.mp he).2
    simp only [Bool.not_eq_true', List.any_eq_false, decide_eq_true_eq] at this
    exact this p hpm
  · obtain ⟨he1, he2⟩ := List.mem_filter.mp he
    obtain ⟨p, hpm, hk⟩ := hm.checksums e he1 hpre
    simp only [Bool.not_eq_true', List.any_eq_false, decide_eq_true_eq] at he2
    exact he2 p hpm (hk.trans (key_shown _ p).symm)

/-- **C100.**  `cargo lock` reads the lockfile that the text of its file means. -/
theorem C100_load (F : LockTexts) (path : Option Str) (l : Lockfile) :
    loadLockfile F.env path = .ok l ↔
      ∃ t, F.file (path.getD "Cargo.lock".toList) = some t ∧ LockfileOf (semverCodec F.url) t l := by
  unfold loadLockfile
  show (match (F.file (path.getD "Cargo.lock".toList)).bind docOfText with
    | none => Outcome.err | some d => Lockfile.parse (semverCodec F.url) d) = .ok l ↔ _
  cases hf : F.file (path.getD "Cargo.lock".toList) with
  | none =>
    constructor
    · intro h; cases h
    · rintro ⟨t, ht, -⟩; cases ht
  | some t =>
    have e : (match (some t : Option Str).bind docOfText with
        | none => Outcome.err | some d => Lockfile.parse (semverCodec F.url) d) = .ok l ↔
        Lockfile.fromText (semverCodec F.url) Toml.read t = .ok l := by
      unfold Lockfile.fromText
      rw [Option.bind_some]
      unfold docOfText
      cases Toml.read t with
      | none => rfl
      | some tb =>
        dsimp only
        cases hd : LockDoc.ofTable tb with
        | ok d => rfl
        | err => rfl
        | panic => constructor <;> intro h <;> cases h
    rw [e, C96_lockfile]
    constructor
    · intro h; exact ⟨t, rfl, h⟩
    · rintro ⟨t', ht, h⟩; cases ht; exact h

private theorem ordered_filter {m : LockMetadata} (h : OrderedKeys m) (f : Str × Str → Bool) : OrderedKeys (m.filter f) :=
  List.Pairwise.sublist List.filter_sublist h

/-- **C100.**  Translating the text of a lockfile as Cargo makes them to a format that can hold it gives a text, printed or
written to the asked file, that means the same lockfile in that format: the same packages with their versions, sources,
checksums and dependencies, and the same unused patches. -/
theorem C100_translate (F : LockTexts) (hU : UrlLib.Lawful F.url) (hT : WritesToml F.out) (path : Option Str) (t : Str) (l : Lockfile)
    (hf : F.file (path.getD "Cargo.lock".toList) = some t) (hl : LockfileOf (semverCodec F.url) t l)
    (hm : CargoMade (semverCodec F.url) l) (v : ResolveVersion) (hv : CanHold v l) :
    ∃ l', l'.version = v ∧ l'.packages = l.packages ∧ l'.patch = l.patch ∧ l'.root = none ∧
      (∀ e, e ∈ l'.metadata ↔ e ∈ l.metadata ∧ ¬ "checksum ".toList <+: e.1) ∧
      (∀ o : Option Str, o = none ∨ o = some "-".toList →
        let r := translate F.env { file := path, output := o, version := some v }
        r.result = .ok () ∧ r.saved F = none ∧ LockfileOf (semverCodec F.url) (r.printed F) l') ∧
      (∀ out, out ≠ "-".toList →
        let r := translate F.env { file := path, output := some out, version := some v }
        r.printed F = [] ∧
        (F.writable out = true → r.result = .ok () ∧ ∃ t', r.saved F = some (out, t') ∧ LockfileOf (semverCodec F.url) t' l') ∧
        (F.writable out = false → r.result = .err ∧ r.saved F = none)) := by
  have hload : loadLockfile F.env path = .ok l := (C100_load F path l).2 ⟨t, hf, hl⟩
  have hwf := translated_wf hU hl hm v hv
  have hord : OrderedKeys l.metadata := C86_ordered _ _ _ _ ((C96_lockfile _ _ _).2 hl)
  have hord' : OrderedKeys (translated (semverCodec F.url) l v).metadata := ordered_filter hord _
  have hprint := print_translated (semverCodec F.url) l v hwf.version
  have htext : ∀ s, s = [] ∨ s = ['\n'] →
      LockfileOf (semverCodec F.url) (({ l with version := v } : Lockfile).text (semverCodec F.url) F.out ++ s) (translated (semverCodec F.url) l v) := by
    intro s hs
    rw [← C96_lockfile]
    have e : ({ l with version := v } : Lockfile).text (semverCodec F.url) F.out = (translated (semverCodec F.url) l v).text (semverCodec F.url) F.out := by
      unfold Lockfile.text; rw [hprint]
    rw [e]
    rcases hs with rfl | rfl
    · rw [List.append_nil]; exact C86_round_trip _ hT _ hord' hwf
    · rw [C86_text_line _ hT _ hord', C28_round_trip _ _ hwf]
  refine ⟨translated (semverCodec F.url) l v, rfl, rfl, rfl, rfl, fun e => ?_, fun o ho => ?_, fun out hout => ?_⟩
  · show e ∈ l.metadata.filter _ ↔ _
    rw [List.mem_filter]
    refine and_congr_right fun he => ?_
    simp only [Bool.not_eq_true', List.any_eq_false, decide_eq_true_eq]
    constructor
    · intro hn hpre
      obtain ⟨p, hp, hk⟩ := hm.checksums e he hpre
      exact hn p hp (hk.trans (key_shown _ p).symm)
    · intro hn p hp hk
      refine hn ?_
      rw [hk, key_shown]
      simp only [List.append_assoc]
      exact List.prefix_append _ _
  · have hr : translate F.env { file := path, output := o, version := some v } =
        { stdout := [.doc (Lockfile.print (semverCodec F.url) { l with version := v })], result := .ok () } := by
      have ho' : o.getD "-".toList = "-".toList := by rcases ho with rfl | rfl <;> rfl
      unfold translate
      dsimp only
      rw [hload]
      dsimp only
      rw [ho', if_pos rfl]
      rfl
    dsimp only
    rw [hr]
    refine ⟨rfl, rfl, ?_⟩
    have := htext ['\n'] (.inr rfl)
    have e : ∀ d, CliRun.printed F { stdout := [.doc d], result := .ok () } = d.text F.out ++ ['\n'] := by
      intro d; unfold CliRun.printed; simp [Out.shown]
    rw [e]
    exact this
  · have hr : translate F.env { file := path, output := some out, version := some v } =
        if F.writable out then
          { written := some (out, Lockfile.print (semverCodec F.url) { l with version := v }), result := .ok () }
        else { result := .err } := by
      unfold translate
      dsimp only
      rw [hload]
      dsimp only
      rw [Option.getD_some, if_neg hout]
      rfl
    dsimp only
    rw [hr]
    refine ⟨?_, fun hw => ?_, fun hw => ?_⟩
    · cases F.writable out <;> rfl
    · rw [if_pos hw]
      refine ⟨rfl, _, rfl, ?_⟩
      have := htext [] (.inl rfl)
      rw [List.append_nil] at this
      exact this
    · rw [hw]; exact ⟨rfl, rfl⟩

/-- The names of all branches are plain. -/
private theorem can_hold {l : Lockfile} (h : ∀ s, SourceIn l s → PlainName s) {v : ResolveVersion} (hv : v ≠ .v1) : CanHold v l := by
  cases v with
  | v1 => exact absurd rfl hv
  | v2 => exact .inr ⟨.inl rfl, h⟩
  | v3 => exact .inr ⟨.inr rfl, h⟩
  | v4 => exact .inl ⟨rfl, fun d hd s hs => h s (.inr ⟨d, hd, hs⟩)⟩

/-- **C100.**  However often the text of a lockfile as Cargo makes them is translated between the formats 2, 3 and 4, its
packages and patches stay the same. -/
theorem C100_chain (U : UrlLib) (hU : UrlLib.Lawful U) (T : TomlOut) (hT : WritesToml T) (t t' : Str) (l : Lockfile)
    (hl : LockfileOf (semverCodec U) t l) (hm : CargoMade (semverCodec U) l) (hp : ∀ s, SourceIn l s → PlainName s)
    (h : Chain U T t t') :
    ∃ l', LockfileOf (semverCodec U) t' l' ∧ l'.packages = l.packages ∧ l'.patch = l.patch ∧
      (∀ e, "checksum ".toList <+: e.1 ∨ (e ∈ l'.metadata ↔ e ∈ l.metadata)) := by
  have key : ∃ l', LockfileOf (semverCodec U) t' l' ∧ CargoMade (semverCodec U) l' ∧ l'.packages = l.packages ∧ l'.patch = l.patch ∧
      (∀ e, "checksum ".toList <+: e.1 ∨ (e ∈ l'.metadata ↔ e ∈ l.metadata)) := by
    induction h with
    | none => exact ⟨l, hl, hm, rfl, rfl, fun e => .inr Iff.rfl⟩
    | @step t₁ t₂ h F path v hu ht hv htr ih =>
      obtain ⟨l₁, hl₁, hm₁, e1, e2, e3⟩ := ih
      subst hu ht
      have hp₁ : ∀ s, SourceIn l₁ s → PlainName s := by
        intro s hs
        refine hp s ?_
        unfold SourceIn at hs ⊢
        rwa [e1, e2] at hs
      have hfile : F.file (path.getD "Cargo.lock".toList) = some t₁ := by cases htr <;> assumption
      obtain ⟨l₂, -, f1, f2, -, f3, f4, f5⟩ := C100_translate F hU hT path t₁ l₁ hfile hl₁ hm₁ v (can_hold hp₁ hv)
      have hsrc : ∀ s, SourceIn l₂ s → SourceIn l₁ s := by
        intro s hs; unfold SourceIn at hs ⊢; rwa [f1, f2] at hs
      have hm₂ : CargoMade (semverCodec F.url) l₂ := by
        refine ⟨fun s hs => hm₁.sources s (hsrc s hs), ?_, ?_, ?_, ?_⟩
        · rw [f1]; exact hm₁.complete
        · rw [f1]; exact hm₁.unmixed
        · rw [f1]; exact hm₁.replaced
        · rw [f1]; exact fun e he => hm₁.checksums e ((f3 e).1 he).1
      refine ⟨l₂, ?_, hm₂, f1.trans e1, f2.trans e2, fun e => ?_⟩
      · cases htr with
        | printed o ho hf hr => exact (f4 o ho).2.2
        | @saved out _ hf hw =>
          by_cases ho : out = "-".toList
          · subst ho
            have := (f4 (some "-".toList) (.inr rfl)).2.1
            rw [this] at hw; cases hw
          · obtain ⟨-, g1, g2⟩ := f5 out ho
            cases hwr : F.writable out with
            | true =>
              obtain ⟨-, x, hx, hx'⟩ := g1 hwr
              rw [hx] at hw; cases hw
              exact hx'
            | false =>
              have := (g2 hwr).2
              rw [this] at hw; cases hw
      · by_cases hpre : "checksum ".toList <+: e.1
        · exact .inl hpre
        · refine .inr ?_
          rw [f3]
          rcases e3 e with h | h
          · exact absurd h hpre
          · rw [h]; exact ⟨fun h => h.1, fun h => ⟨h, hpre⟩⟩
  obtain ⟨l', h1, -, h2⟩ := key
  exact ⟨l', h1, h2⟩

/-- **C100.**  `cargo lock` and `cargo lock list` print, for the packages that the text means, in their order, a line for
each wanted package and, if asked, for its dependencies. -/
theorem C100_list (F : LockTexts) (args : ListArgs) (t : Str) (l : Lockfile)
    (hf : F.file (args.file.getD "Cargo.lock".toList) = some t) (hl : LockfileOf (semverCodec F.url) t l) :
    (list F.env args).result = .ok () ∧ (list F.env args).saved F = none ∧
    ∃ blocks : List (List Str),
      List.Forall₂ (ListedAs (semverCodec F.url) args)
        (l.packages.filter fun p => decide (∀ n, args.package = some n → p.name = n)) blocks ∧
      (list F.env args).printed F = blocks.flatten.flatMap (· ++ ['\n']) := by
  have hload : loadLockfile F.env args.file = .ok l := (C100_load F args.file l).2 ⟨t, hf, hl⟩
  obtain ⟨h1, h2, h3⟩ := C71_list F.env args
  obtain ⟨blocks, hb, ho⟩ := h3 l hload
  refine ⟨h1.2 ⟨l, hload⟩, by unfold CliRun.saved; rw [h2]; rfl, blocks, hb, ?_⟩
  unfold CliRun.printed
  rw [ho, List.flatMap_map]
  rfl

end Verif.Props
