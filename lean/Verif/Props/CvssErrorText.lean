import Verif.Props.CvssError

/-!
# C85: the messages of the errors
-/

namespace Verif.Cvss

open List Spec

/-! ## What a message says -/

theorem V2.worded (m : V2.MetricType) : ∃ g ∈ glossary2, m.name = g.abbr.toList ∧ m.description = g.name.toList := by
  cases m <;> decide +kernel

theorem V3.worded (m : V3.MetricType) : ∃ g ∈ glossary3, m.name = g.abbr.toList ∧ m.description = g.name.toList := by
  cases m <;> decide +kernel

theorem V4.worded (m : V4.MetricType) : ∃ g ∈ glossary4, m.name = g.abbr.toList ∧ m.description = g.name.toList := by
  cases m <;> decide +kernel

theorem tells {G : List Metric} {name description a b : Str}
    (h : ∃ g ∈ G, name = g.abbr.toList ∧ description = g.name.toList) :
    Tells G name a b (a ++ metricLabel name description ++ b) := by
  obtain ⟨g, hg, rfl, rfl⟩ := h
  refine ⟨g, hg, rfl, ?_⟩
  unfold metricLabel
  generalize " (".toList = x
  generalize ")".toList = y
  simp only [append_assoc]

theorem tells_quoted {G : List Metric} {name description a b v c : Str}
    (h : ∃ g ∈ G, name = g.abbr.toList ∧ description = g.name.toList) :
    Tells G name a (b ++ (v ++ c)) (a ++ metricLabel name description ++ b ++ v ++ c) := by
  rw [append_assoc _ v c, append_assoc _ b (v ++ c)]
  exact tells h

/-- **C85** The message says what is wrong, with which metric (abbreviation and name as in the specification of its version)
or with which text. -/
theorem C85_display (e : Error) : Message e e.display := by
  cases e with
  | invalidMetric m v => exact tells_quoted (V3.worded m)
  | invalidMetricV2 m v => exact tells_quoted (V2.worded m)
  | duplicateMetricV2 m => exact tells (V2.worded m)
  | duplicateMetricV3 m => exact tells (V3.worded m)
  | missingMandatoryMetricV2 m => exact tells (V2.worded m)
  | invalidMetricV4 m v => exact tells_quoted (V4.worded m)
  | missingMandatoryMetricV4 m => exact tells (V4.worded m)
  | duplicateMetricV4 m => exact tells (V4.worded m)
  | _ => rfl

/-! ## Different errors have different messages -/

/-- The error without the text it quotes. -/
def Error.kind : Error → Error
  | .invalidComponent _ => .invalidComponent []
  | .invalidMetric m _ => .invalidMetric m []
  | .invalidMetricV2 m _ => .invalidMetricV2 m []
  | .invalidMetricV4 m _ => .invalidMetricV4 m []
  | .invalidNomenclatureV4 _ => .invalidNomenclatureV4 []
  | .invalidPrefix _ => .invalidPrefix []
  | .invalidSeverity _ => .invalidSeverity []
  | .unknownMetric _ => .unknownMetric []
  | .unsupportedVersion _ => .unsupportedVersion []
  | e => e

/-- The text it quotes. -/
def Error.quoted : Error → Str
  | .invalidComponent c => c
  | .invalidMetric _ v => v
  | .invalidMetricV2 _ v => v
  | .invalidMetricV4 _ v => v
  | .invalidNomenclatureV4 n => n
  | .invalidPrefix p => p
  | .invalidSeverity n => n
  | .unknownMetric n => n
  | .unsupportedVersion v => v
  | _ => []

/-- The message up to the quoted text. -/
def Error.head : Error → Str
  | .invalidComponent _ => "invalid CVSS metric group component: `".toList
  | .invalidMetric m _ => "invalid CVSSv3 ".toList ++ metricLabel m.name m.description ++ " metric: `".toList
  | .invalidMetricV2 m _ => "invalid CVSSv2 ".toList ++ metricLabel m.name m.description ++ " metric: `".toList
  | .invalidMetricV4 m _ => "invalid CVSSv4 ".toList ++ metricLabel m.name m.description ++ " metric: `".toList
  | .invalidNomenclatureV4 _ => "invalid CVSSv4 nomenclature: `".toList
  | .invalidPrefix _ => "invalid CVSS string prefix: `".toList
  | .invalidSeverity _ => "invalid CVSS Qualitative Severity Rating: `".toList
  | .unknownMetric _ => "unknown CVSS metric name: `".toList
  | .unsupportedVersion _ => "unsupported CVSS version: ".toList
  | e => e.display

/-- What closes the quotation. -/
def Error.close : Error → Str
  | .invalidComponent _ | .invalidMetric _ _ | .invalidMetricV2 _ _ | .invalidMetricV4 _ _ | .invalidNomenclatureV4 _
  | .invalidPrefix _ | .invalidSeverity _ | .unknownMetric _ => "`".toList
  | _ => []

theorem display_parts (e : Error) : e.display = e.kind.head ++ (e.quoted ++ e.kind.close) := by
  cases e with
  | unsupportedVersion v => exact (congrArg ("unsupported CVSS version: ".toList ++ ·) (append_nil v)).symm
  | duplicateMetricV2 m => exact (append_nil _).symm
  | duplicateMetricV3 m => exact (append_nil _).symm
  | duplicateMetricV4 m => exact (append_nil _).symm
  | missingMandatoryMetricV2 m => exact (append_nil _).symm
  | missingMandatoryMetricV4 m => exact (append_nil _).symm
  | _ => exact append_assoc _ _ _

theorem kind_quoted {e e' : Error} (h : e.kind = e'.kind) (hq : e.quoted = e'.quoted) : e = e' := by
  cases e <;> cases e' <;> simp_all [Error.kind, Error.quoted]

/-- All kinds of errors. -/
def Error.kinds : List Error :=
  V3.MetricType.all.map (.invalidMetric · []) ++ V2.MetricType.all.map (.invalidMetricV2 · []) ++
    V4.MetricType.all.map (.invalidMetricV4 · []) ++ V2.MetricType.all.map .duplicateMetricV2 ++
    V3.MetricType.all.map .duplicateMetricV3 ++ V4.MetricType.all.map .duplicateMetricV4 ++
    V2.MetricType.all.map .missingMandatoryMetricV2 ++ V4.MetricType.all.map .missingMandatoryMetricV4 ++
    [.invalidComponent [], .invalidNomenclatureV4 [], .invalidPrefix [], .invalidSeverity [], .unknownMetric [],
      .unsupportedVersion []]

theorem kind_mem (e : Error) : e.kind ∈ Error.kinds := by
  have h2 := V2.MetricType.mem_all
  have h3 := V3.MetricType.mem_all
  have h4 := V4.MetricType.mem_all
  unfold Error.kinds
  cases e <;> simp [Error.kind, h2, h3, h4]

theorem heads_apart : ∀ a ∈ Error.kinds, ∀ b ∈ Error.kinds, a.head.isPrefixOf b.head = true → a = b := by
  decide +kernel

/-- **C85** The message determines the error: two different errors never have the same message. -/
theorem C85_display_injective (e e' : Error) (h : e.display = e'.display) : e = e' := by
  rw [display_parts, display_parts] at h
  have hk : e.kind = e'.kind := by
    rcases List.append_eq_append_iff.mp h with ⟨t, h1, -⟩ | ⟨t, h1, -⟩
    · exact heads_apart _ (kind_mem e) _ (kind_mem e') (by rw [isPrefixOf_iff_prefix, h1]; exact prefix_append _ _)
    · exact (heads_apart _ (kind_mem e') _ (kind_mem e) (by rw [isPrefixOf_iff_prefix, h1]; exact prefix_append _ _)).symm
  refine kind_quoted hk ?_
  rw [hk] at h
  exact append_cancel_right (append_cancel_left h)

/-! ## The two other parsers -/

/-- **C85** `Nomenclature::from_str` reports the text it was given, exactly when the text is none of the four. -/
theorem C85_nomenclature (s : Str) (e : Error) : V4.Nomenclature.parse s = .error e ↔
    (s ≠ "CVSS-B".toList ∧ s ≠ "CVSS-BE".toList ∧ s ≠ "CVSS-BT".toList ∧ s ≠ "CVSS-BTE".toList) ∧
      e = .invalidNomenclatureV4 s := by
  unfold V4.Nomenclature.parse V4.Nomenclature.fromStr
  simp only [lookupStr]
  by_cases h1 : s = "CVSS-B".toList
  · rw [if_pos h1]; exact ⟨(fun h => by cases h), (fun h => absurd h1 h.1.1)⟩
  rw [if_neg h1]
  by_cases h2 : s = "CVSS-BE".toList
  · rw [if_pos h2]; exact ⟨(fun h => by cases h), (fun h => absurd h2 h.1.2.1)⟩
  rw [if_neg h2]
  by_cases h3 : s = "CVSS-BT".toList
  · rw [if_pos h3]; exact ⟨(fun h => by cases h), (fun h => absurd h3 h.1.2.2.1)⟩
  rw [if_neg h3]
  by_cases h4 : s = "CVSS-BTE".toList
  · rw [if_pos h4]; exact ⟨(fun h => by cases h), (fun h => absurd h4 h.1.2.2.2)⟩
  rw [if_neg h4]
  exact ⟨(fun h => by cases h; exact ⟨⟨h1, h2, h3, h4⟩, rfl⟩), (fun h => by rw [h.2])⟩

/-- **C85** `Severity::from_str` reports the text it was given, exactly when the text is none of the five, in any case. -/
theorem C85_severity (s : Str) (e : Error) : parseSeverity s = .error e ↔
    (∀ w ∈ ["none".toList, "low".toList, "medium".toList, "high".toList, "critical".toList], ¬ SameLetters s w) ∧
      e = .invalidSeverity s := by
  have hl : ∀ w ∈ ["none".toList, "low".toList, "medium".toList, "high".toList, "critical".toList],
      (SameLetters s w ↔ Adv.asciiLower s = w) := by
    intro w hw
    have : w.map Char.toLower = w := by
      revert w; decide +kernel
    unfold SameLetters
    rw [this]
    rfl
  rw [show (∀ w ∈ ["none".toList, "low".toList, "medium".toList, "high".toList, "critical".toList], ¬ SameLetters s w) ↔
    ∀ w ∈ ["none".toList, "low".toList, "medium".toList, "high".toList, "critical".toList], Adv.asciiLower s ≠ w from
    ⟨fun h w hw h' => h w hw ((hl w hw).mpr h'), fun h w hw h' => h w hw ((hl w hw).mp h')⟩]
  unfold parseSeverity Adv.Severity.fromStr
  simp only [forall_mem_cons]
  by_cases h1 : Adv.asciiLower s = "none".toList
  · rw [if_pos h1]; exact ⟨(fun h => by cases h), (fun h => absurd h1 h.1.1)⟩
  rw [if_neg h1]
  by_cases h2 : Adv.asciiLower s = "low".toList
  · rw [if_pos h2]; exact ⟨(fun h => by cases h), (fun h => absurd h2 h.1.2.1)⟩
  rw [if_neg h2]
  by_cases h3 : Adv.asciiLower s = "medium".toList
  · rw [if_pos h3]; exact ⟨(fun h => by cases h), (fun h => absurd h3 h.1.2.2.1)⟩
  rw [if_neg h3]
  by_cases h4 : Adv.asciiLower s = "high".toList
  · rw [if_pos h4]; exact ⟨(fun h => by cases h), (fun h => absurd h4 h.1.2.2.2.1)⟩
  rw [if_neg h4]
  by_cases h5 : Adv.asciiLower s = "critical".toList
  · rw [if_pos h5]; exact ⟨(fun h => by cases h), (fun h => absurd h5 h.1.2.2.2.2.1)⟩
  rw [if_neg h5]
  exact ⟨(fun h => by cases h; exact ⟨⟨h1, h2, h3, h4, h5, (fun _ h => by cases h)⟩, rfl⟩), (fun h => by rw [h.2])⟩

/-! ## Examples -/

/-- The error of a result. -/
def errorOf {α : Type} : Except Error α → Option Error
  | .ok _ => none
  | .error e => some e

theorem of_errorOf {α : Type} {x : Except Error α} {e : Error} (h : errorOf x = some e) : x = .error e := by
  cases x with
  | ok _ => cases h
  | error e' => cases h; rfl

/-- One text for each of the errors that the unified parser reports. -/
def wrongTexts : List (Str × Error) :=
  [("AV:N".toList, .invalidComponent "AV:N".toList),
    ("CVSS3/AV:N".toList, .invalidComponent "CVSS3".toList),
    ("CVSS:3.1/AV:N/AC".toList, .invalidComponent "AC".toList),
    ("CVS:3.1/AV:N".toList, .invalidPrefix "CVS".toList),
    ("CVSS:3.2/AV:N".toList, .unsupportedVersion "3.2".toList),
    ("CVSS:3.1/AV:N/xy:n".toList, .unknownMetric "XY".toList),
    ("CVSS:3.1/AV:N/ac:q/xy:n".toList, .invalidMetric .AC "Q".toList),
    ("CVSS:3.0/AV:N/av:L".toList, .duplicateMetricV3 .AV),
    ("AV:N/AC:L/AU:N".toList, .unknownMetric "AU".toList),
    ("AV:N/AC:l".toList, .invalidMetricV2 .AC "l".toList),
    ("AV:N/AV:N".toList, .duplicateMetricV2 .AV),
    ("AV:N/AC:L/Au:N/C:P/A:P".toList, .missingMandatoryMetricV2 .I),
    ("CVSS:4.0/AV:Q".toList, .invalidMetricV4 .AV "Q".toList),
    ("CVSS:4.0/AV:N/AV:N".toList, .duplicateMetricV4 .AV),
    ("CVSS:4.0/AV:N/AC:L".toList, .missingMandatoryMetricV4 .AT)]

theorem wrongTexts_wrong : ∀ p ∈ wrongTexts, Wrong p.1 p.2 := by
  intro p hp
  refine (C85_cvss _ _).mp (of_errorOf ?_)
  revert p
  decide +kernel

/-- The messages of two of them. -/
example : (Error.invalidMetric .AC "Q".toList).display = "invalid CVSSv3 AC (Attack Complexity) metric: `Q`".toList := by
  decide +kernel

example : (Error.missingMandatoryMetricV4 .AT).display =
    "missing mandatory CVSSv4 AT (Attack Requirements) metric".toList := by decide +kernel

example : V4.Nomenclature.parse "cvss-b".toList = .error (.invalidNomenclatureV4 "cvss-b".toList) :=
  (C85_nomenclature _ _).mpr ⟨by decide +kernel, rfl⟩

example : parseSeverity "severe".toList = .error (.invalidSeverity "severe".toList) := of_errorOf (by decide +kernel)

end Verif.Cvss
