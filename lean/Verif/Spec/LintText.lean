import Verif.Model.LintText
import Verif.Spec.LintTranscript

/-!
# What the messages of the linter say (C110)
-/

namespace Verif.Spec

open Verif.Adv Verif.Lint

/-- The table of this name has this key, with this value. -/
def InSection (t : TomlTable) (sect key : String) (v : Toml) : Prop :=
  ∃ m, (sect.toList, .table m) ∈ t ∧ (key.toList, v) ∈ m

/-- The table of this name has this key. -/
def KeyIn (t : TomlTable) (sect : String) (key : Str) : Prop := ∃ m v, (sect.toList, .table m) ∈ t ∧ (key, v) ∈ m

/-- The messages: the words for each problem.  The sections, keys and values named are those of the file, which has `n` lines
of front matter, the document `t` and the Markdown `md` (apart from the section of `yanked` and the key of the categories). -/
inductive Says (W : Words) (n : Nat) (t : TomlTable) (md : Str) : Finding → Str → Prop
  | mention {i : Nat} {user : Str} (h : FirstMention md i user) : Says W n t md (.mention i)
      ("malformed content in [markdown]: bare @".toList ++ (user ++ (" in advisory on line ".toList ++
        (showNat (n + 4 + i) ++ " (use explicit link to avoid spam)".toList))))
  | topKey {k : Str} {v : Toml} (h : (k, v) ∈ t) : Says W n t md (.unknownKey none k)
      ("invalid key `".toList ++ (k ++ "` in toplevel".toList))
  | advisoryKey {k : Str} (h : KeyIn t "advisory" k) : Says W n t md (.unknownKey (some "advisory".toList) k)
      ("invalid key `".toList ++ (k ++ "` in [advisory]".toList))
  | versionsKey {k : Str} (h : KeyIn t "versions" k) : Says W n t md (.unknownKey (some "versions".toList) k)
      ("invalid key `".toList ++ (k ++ "` in [versions]".toList))
  | affectedKey {k : Str} (h : KeyIn t "affected" k) : Says W n t md (.unknownKey (some "affected".toList) k)
      ("invalid key `".toList ++ (k ++ "` in [affected]".toList))
  | draft {v : Toml} (h : InSection t "advisory" "id" v) : Says W n t md .draftMismatch
      ("invalid value `".toList ++ (W.toml v ++
        "` for key `id` in [advisory]: advisory ID draft status does not match file name".toList))
  | otherId {v : Toml} (h : InSection t "advisory" "id" v) : Says W n t md .otherId
      ("invalid value `".toList ++ (W.toml v ++ "` for key `id` in [advisory]: unknown advisory ID type".toList))
  | yearOfId {v : Toml} (h : InSection t "advisory" "id" v) : Says W n t md .yearMismatch
      ("invalid value `".toList ++ (W.toml v ++ "` for key `id` in [advisory]: year in advisory ID does not match date".toList))
  | yearOfDate {v : Toml} (h : InSection t "advisory" "date" v) : Says W n t md .yearMismatch
      ("invalid value `".toList ++ (W.toml v ++
        "` for key `date` in [advisory]: year in advisory ID does not match date".toList))
  | category {s : Str} (h : KeyIn t "advisory" "categories".toList) : Says W n t md (.unknownCategory s)
      ("invalid value `".toList ++ (s ++ ("` for key `category` in [advisory]: unknown category ".toList ++ W.debug s)))
  | collection (h : KeyIn t "advisory" "collection".toList) : Says W n t md .explicitCollection
      "malformed content in [advisory]: collection shouldn't be explicit; inferred by location".toList
  | informational {s : Str} (h : KeyIn t "advisory" "informational".toList) : Says W n t md (.unknownInformational s)
      ("invalid value `".toList ++ (s ++
        ("` for key `informational` in [advisory]: unknown informational advisory type ".toList ++ W.debug s)))
  | url {u : Str} (h : InSection t "advisory" "url" (.str u)) : Says W n t md (.insecureUrl u)
      ("invalid value `".toList ++ (W.toml (.str u) ++ "` for key `url` in [advisory]: URL must start with https://".toList))
  | yanked (h : KeyIn t "advisory" "yanked".toList) : Says W n t md .yankedDeprecated
      "malformed content in [metadata]: field `yanked` is deprecated, use `withdrawn` field instead".toList
  | license {l : Str} (h : InSection t "advisory" "license" (.str l)) : Says W n t md (.unknownLicense l)
      ("invalid value `".toList ++ (l ++ ("` for key `license` in [advisory]: unknown license ".toList ++ W.debug l)))
  | notTable {v : Toml} (h : ("advisory".toList, v) ∈ t) (hv : ∀ m, v ≠ .table m) : Says W n t md .notTable
      "malformed content in [advisory]: expected table".toList
  | function {p : List Str} {s : Str} (h : FunctionPath.fromStr s = .ok p) (hk : KeyIn t "affected" "functions".toList) :
      Says W n t md (.foreignFunction p)
      ("invalid value `".toList ++ (s ++
        "` for key `functions` in [affected]: function path must start with crate name".toList))
  | arch {s : Str} (hk : KeyIn t "affected" "arch".toList) : Says W n t md (.unknownArch s)
      ("invalid value `".toList ++ (s ++ ("` for key `arch` in [affected]: unknown architecture ".toList ++ W.debug s)))
  | os (hk : KeyIn t "affected" "os".toList) : Says W n t md .emptyOs
      "invalid value `` for key `os` in [affected]: unknown OS".toList

/-- A text between quotes: the quotes inside are escaped with a backslash. -/
def Quoted (q : Str) : Prop :=
  ∃ body, q = '"' :: (body ++ ['"']) ∧ ∀ u v, body = u ++ '"' :: v → u.getLast? = some '\\'

/-- What is known of the way values are written. -/
structure WordsOk (W : Words) : Prop where
  quoted : ∀ s, Quoted (W.debug s)
  toml : ∀ u v, W.toml (.str u) = W.toml (.str v) → u = v

end Verif.Spec
