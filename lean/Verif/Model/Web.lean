import Verif.Model.OsvExport
import Mathlib.Data.List.Sort

/-!
# `rustsec-admin web`: the site of the advisory database

Model of `admin/src/web.rs` and of the search function of its pages (`admin/src/web/static/js/search.js`).  A page is
the data that its template gets: HTML, Markdown and the escaping of texts are not modelled.  Directories can be created
and files written.  The advisories are those of the database, each with its collection (`database.rs:87`).
-/

namespace Verif.Web

open Verif.Adv Verif.Db Verif.Assign Verif.Git Verif.Osv Verif.Sync Verif.Export Verif.Lock

/-- The libraries, and the day of today. -/
structure WebEnv where
  /-- libraries for advisories, modification times, tracked files -/
  exp : ExportEnv
  /-- `str::to_lowercase` -/
  lower : Str → Str
  /-- `NaiveDate::from_ymd` returns -/
  ymd : Nat → Nat → Nat → Bool
  /-- `NaiveDate::parse_from_str(.., "%Y-%m-%d")`, as a number of days -/
  days : Str → Option Int
  /-- `FixedDateTime::from_str` succeeds -/
  stamp : Str → Bool
  /-- `Utc::today()` -/
  today : Int

/-- `web.rs:603-608`: `struct AdvisoryData`; the path is computed from the advisory (`Data.path`). -/
structure Data where
  advisory : AdvisoryFile
  created : DateText
  modified : DateText

/-- `web.rs:616-621`: the path of the file of an advisory; an advisory without collection is a panic. -/
def pathOf (a : AdvisoryFile) : Outcome Str :=
  match a.metadata.collection with
  | none => .panic
  | some c => .ok (gitPath ⟨c, a.metadata.package, a.metadata.id.display ++ ".md".toList⟩)

/-- `web.rs:611-630`: `AdvisoryData::new`. -/
def Data.new (E : WebEnv) (a : AdvisoryFile) : Outcome Data := do
  let path ← pathOf a
  if E.exp.tracked path then
    let created ← E.exp.modTimes.cdateForPath E.exp.cal E.exp.adv.civil path
    let modified ← E.exp.modTimes.mdateForPath E.exp.cal E.exp.adv.civil path
    .ok { advisory := a, created, modified }
  else .panic

/-- `web.rs:402-420`: `title_type`. -/
def titleType (a : AdvisoryFile) : Str :=
  let id := a.metadata.id.string
  let package := a.metadata.package
  match a.metadata.informational with
  | some .notice => id ++ ": Security notice about ".toList ++ package
  | some .unmaintained => id ++ ": ".toList ++ package ++ " is unmaintained".toList
  | some .unsound => id ++ ": Unsoundness in ".toList ++ package
  | some (.other s) => id ++ ": ".toList ++ package ++ " is ".toList ++ s
  | none =>
    if .malicious ∈ a.metadata.categories then id ++ ": ".toList ++ package ++ " contained malicious code".toList
    else id ++ ": Vulnerability in ".toList ++ package

/-- `web.rs:574-587`: `friendly_date`; only whether it returns. -/
def friendlyDate (E : WebEnv) (d : DateText) : Outcome Unit := do
  let y ← d.year
  let m ← d.month
  let n ← d.day
  if E.ymd y m n then .ok () else .panic

/-- `web.rs:590-600`: `safe_keyword`. -/
def safeKeyword (s : Str) : Str :=
  s.map fun c => if c.isAlphanum || c == '-' || c == '_' then c else '-'

/-- The data of a list of advisories, with their titles (`web.rs:46-60`). -/
abbrev Listing := List (Data × Str)

/-- `web.rs:53-60`: `AdvisoriesSubList`. -/
structure Sub where
  title : Str
  groupBy : Str
  entries : Listing

/-- `web.rs:83`: an item of an index: name, address, number of advisories. -/
structure ListItem where
  name : Str
  url : Str
  count : Option Nat

/-- `web.rs:462-516`: an entry of the feed. -/
structure FeedEntry where
  data : Data
  url : Str
  title : Str
  published : Str
  updated : Str
  categories : List Str

/-- A page. -/
inductive Page where
  | static
  | advisory (d : Data)
  | listing (l : Listing)
  | sub (s : Sub)
  | index (title : Str) (items : List ListItem)
  | osv (records : List OsvAdvisory)
  | search (ids : List (Str × List Id)) (packages : List Str)
  | feed (entries : List FeedEntry) (updated : Str)

/-- A file of the site: its folder and its name. -/
abbrev SitePath := Str × Str

/-- An action: a file, and the page that is rendered for it. -/
abbrev Step := SitePath × Outcome Page

/-- A folder and a file name. -/
def at_ (folder : String) (name : Str) : SitePath := (folder.toList, name)

/-- `web.rs:62-77, templates/advisory-content.html`: the page of an advisory shows three dates. -/
def advisoryPage (E : WebEnv) (d : Data) : Outcome Unit := do
  friendlyDate E d.advisory.metadata.date
  friendlyDate E d.created
  if d.created ≠ d.modified then friendlyDate E d.modified else .ok ()

/-- `templates/advisory-list-entry.html`: a list shows the dates of its entries. -/
def listingPage (E : WebEnv) : Listing → Outcome Unit
  | [] => .ok ()
  | e :: es => do
    friendlyDate E e.1.created
    listingPage E es

/-- `web.rs:130-145`: the page of an advisory. -/
def advisoryStep (E : WebEnv) (d : Data) : Step :=
  (at_ "advisories" (d.advisory.metadata.id.string ++ ".html".toList),
   do advisoryPage E d; .ok (.advisory d))

/-- `web.rs:161-163`: the latest first. -/
def newestFirst (ds : List Data) : List Data :=
  ds.insertionSort fun a b => strCmp b.created.text a.created.text ≠ .gt

/-- An entry of a list, with its title. -/
def entryOf (d : Data) : Data × Str := (d, titleType d.advisory)

/-- `iter_mut().find(..)` and `push`: `web.rs:200-214, 279-293, 326-340`. -/
def addSub (title key : Str) (entry : Data × Str) : List Sub → List Sub
  | [] => [{ title, groupBy := key, entries := [entry] }]
  | s :: ss =>
    if s.groupBy = key then { s with entries := s.entries ++ [entry] } :: ss
    else s :: addSub title key entry ss

/-- `web.rs:192-199`: count a package. -/
def addCount (key url : Str) : List ListItem → List ListItem
  | [] => [{ name := key, url, count := some 1 }]
  | i :: is =>
    if i.name = key then { i with count := i.count.map (· + 1) } :: is
    else i :: addCount key url is

/-- `web.rs:271-277, 318-324`: add an item if it is not there. -/
def addItem (key url : Str) (is : List ListItem) : List ListItem :=
  if is.any (fun i => decide (i.name = key)) then is else is ++ [{ name := key, url, count := none }]

/-- `/<folder>/<key>.html`. -/
def urlOf (folder : String) (key : Str) : Str := '/' :: folder.toList ++ '/' :: key ++ ".html".toList

/-- `web.rs:185-215`: the pages per package. -/
def perPackage (ds : List Data) : List Sub :=
  ds.foldl (fun gs d =>
    let p := d.advisory.metadata.package
    addSub ("Advisories for package '".toList ++ p ++ "'".toList) p (entryOf d) gs) []

/-- `web.rs:186-199`: the packages. -/
def packages (ds : List Data) : List ListItem :=
  ds.foldl (fun is d => let p := d.advisory.metadata.package; addCount p (urlOf "packages" p) is) []

/-- `web.rs:255-268`: the keywords of an advisory, without duplicates. -/
def slugs (d : Data) : List Str := sortDedup strCmp (d.advisory.metadata.keywords.map safeKeyword)

/-- `web.rs:249-295`: the pages per keyword. -/
def perKeyword (ds : List Data) : List Sub :=
  ds.foldl (fun gs d => (slugs d).foldl (fun gs k =>
    addSub ("Advisories with keyword '".toList ++ k ++ "'".toList) k (entryOf d) gs) gs) []

/-- `web.rs:250-277`: the keywords. -/
def keywords (ds : List Data) : List ListItem :=
  ds.foldl (fun is d => (slugs d).foldl (fun is k => addItem k (urlOf "keywords" k) is) is) []

/-- `web.rs:311-342`: the pages per category. -/
def perCategory (ds : List Data) : List Sub :=
  ds.foldl (fun gs d => (d.advisory.metadata.categories.map Category.name).foldl (fun gs k =>
    addSub ("Advisories in category '".toList ++ k ++ "'".toList) k (entryOf d) gs) gs) []

/-- `web.rs:312-324`: the categories. -/
def categories (ds : List Data) : List ListItem :=
  ds.foldl (fun is d => (d.advisory.metadata.categories.map Category.name).foldl (fun is k =>
    addItem k (urlOf "categories" k) is) is) []

/-- `web.rs:87-97`: `render_list_index`. -/
def indexStep (E : WebEnv) (folder title : String) (items : List ListItem) : Step :=
  (at_ folder "index.html".toList,
   .ok (.index title.toList (items.insertionSort fun a b => strCmp (E.lower a.name) (E.lower b.name) ≠ .gt)))

/-- `web.rs:222-225, 299-303, 349-353`: the page of a group. -/
def subStep (E : WebEnv) (folder : String) (s : Sub) : Step :=
  (at_ folder (s.groupBy ++ ".html".toList), do listingPage E s.entries; .ok (.sub s))

/-- `web.rs:231-236`: the record of an advisory. -/
def osvOf (E : WebEnv) (d : Data) : Outcome OsvAdvisory := do
  let path ← pathOf d.advisory
  if E.exp.tracked path then fromRustsec E.exp.cal E.exp.adv.url d.advisory E.exp.modTimes path else .panic

/-- `web.rs:227-240`: the records of a package. -/
def osvStep (E : WebEnv) (s : Sub) : Step :=
  (at_ "packages" (s.groupBy ++ ".json".toList),
   do let rs ← Outcome.mapList (fun e => osvOf E e.1) s.entries; .ok (.osv rs))

/-- `HashMap::entry(..).and_modify(..).or_insert_with(..)`: `web.rs:440-442`; the order of the map is not modelled. -/
def addId (key : Str) (id : Id) : List (Str × List Id) → List (Str × List Id)
  | [] => [(key, [id])]
  | e :: es => if e.1 = key then (e.1, e.2 ++ [id]) :: es else e :: addId key id es

/-- `web.rs:424-443`: the IDs that can be searched for. -/
def searchIds (E : WebEnv) (ds : List Data) : List (Str × List Id) :=
  ds.foldl (fun ids d =>
    (d.advisory.metadata.aliases ++ d.advisory.metadata.related ++ [d.advisory.metadata.id]).foldl
      (fun ids x => addId (E.lower x.display) d.advisory.metadata.id ids) ids) []

/-- `web.rs:444`: the packages that can be searched for, as a set. -/
def searchPackages (E : WebEnv) (ds : List Data) : List Str :=
  ds.foldl (fun ps d => let p := E.lower d.advisory.metadata.package; if p ∈ ps then ps else ps ++ [p]) []

/-- `web.rs:374-384`: how many of the first advisories are of the last days. -/
def recentLen (E : WebEnv) : List Data → Outcome Nat
  | [] => .ok 0
  | d :: ds =>
    match E.days d.created.text with
    | none => .panic
    | some n =>
      if n > E.today - 8 then do
        let k ← recentLen E ds
        .ok (k + 1)
      else .ok 0

/-- `web.rs:386-395`. -/
def feedLen (total recent : Nat) : Nat :=
  if total < 10 then total else if recent > 10 then recent else 10

/-- The time of day of the feed. -/
def noon : Str := "T12:00:00+00:00".toList

/-- `web.rs:462-516`: an entry of the feed. -/
def feedEntry (E : WebEnv) (d : Data) : Outcome FeedEntry := do
  advisoryPage E d
  if E.stamp (d.created.text ++ noon) then
    if E.stamp (d.modified.text ++ noon) then
      .ok { data := d,
            url := "https://rustsec.org/advisories/".toList ++ d.advisory.metadata.id.string ++ ".html".toList,
            title := titleType d.advisory, published := d.created.text ++ noon, updated := d.modified.text ++ noon,
            categories := d.advisory.metadata.categories.map Category.name }
    else .panic
  else .panic

/-- `web.rs:454-546`: `render_feed`; it needs an advisory. -/
def renderFeed (E : WebEnv) (ds : List Data) : Outcome Page :=
  match ds with
  | [] => .panic
  | d :: _ => do
    let entries ← Outcome.mapList (feedEntry E) ds
    if E.stamp (d.created.text ++ noon) then .ok (.feed entries (d.created.text ++ noon)) else .panic

/-- `web.rs:370-396`: the feed. -/
def feedStep (E : WebEnv) (ds : List Data) : Step :=
  (at_ "" "feed.xml".toList,
   do let n ← recentLen E ds; renderFeed E (ds.take (feedLen ds.length n)))

/-- `web.rs:99-399`: everything that `render_advisories` writes, in order. -/
def steps (E : WebEnv) (ds : List Data) : List Step :=
  let sorted := newestFirst ds
  [(at_ "" "contributing.html".toList, .ok .static)] ++
  ds.map (advisoryStep E) ++
  [(at_ "" "index.html".toList, .ok .static), (at_ "" "search.html".toList, .ok .static)] ++
  [(at_ "advisories" "index.html".toList,
    do listingPage E (sorted.map entryOf); .ok (.listing (sorted.map entryOf)))] ++
  indexStep E "packages" "Packages" (packages sorted) ::
    (perPackage sorted).flatMap (fun s => [subStep E "packages" s, osvStep E s]) ++
  indexStep E "keywords" "Keywords" (keywords sorted) :: (perKeyword sorted).map (subStep E "keywords") ++
  indexStep E "categories" "Categories" (categories sorted) :: (perCategory sorted).map (subStep E "categories") ++
  [(at_ "js" "index.js".toList, .ok (.search (searchIds E sorted) (searchPackages E sorted))), feedStep E sorted]

/-- What was written, and how it ended. -/
structure SiteRun where
  writes : List (SitePath × Page)
  result : Outcome Unit

/-- Run the actions until one panics. -/
def runSteps : List Step → SiteRun
  | [] => { writes := [], result := .ok () }
  | (p, .ok page) :: rest => let r := runSteps rest; { r with writes := (p, page) :: r.writes }
  | (_, .err) :: _ => { writes := [], result := .err }
  | (_, .panic) :: _ => { writes := [], result := .panic }

/-- `web.rs:99-399`: `render_advisories` on the advisories of the database. -/
def renderAdvisories (E : WebEnv) (as : List AdvisoryFile) : SiteRun :=
  match Outcome.mapList (Data.new E) as with
  | .ok ds => runSteps (steps E ds)
  | .err => { writes := [], result := .err }
  | .panic => { writes := [], result := .panic }

/-- A file afterwards: a later write replaces an earlier one. -/
def SiteRun.file (r : SiteRun) (p : SitePath) : Option Page := r.writes.reverse.lookup p

/-- What a search leads to: a page of the site, a list of advisories, or nothing. -/
inductive SearchAnswer where
  | page (p : SitePath)
  | results (ids : List Id)
  | nothing

/-- `static/js/search.js:1-44`: the search for a term (already trimmed).  Keys that JavaScript objects inherit, such as
`constructor`, are not modelled. -/
def search (E : WebEnv) (ids : List (Str × List Id)) (packages : List Str) (term : Str) : SearchAnswer :=
  let term := E.lower term
  if term ∈ packages then .page (at_ "packages" (term ++ ".html".toList))
  else
    match ids.lookup term with
    | some [id] => .page (at_ "advisories" (id.string ++ ".html".toList))
    | some l => .results l
    | none => .nothing

end Verif.Web
