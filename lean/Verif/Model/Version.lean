import Verif.Np.Text
import Mathlib.Data.List.Sort
import Mathlib.Data.List.Lex
import Mathlib.Data.List.SplitOn

/-!
# metsim/_version.py: the version of the program

`verbose` is off (get_config), so nothing is printed.  What git answers is a parameter.  `\d` is read as `[0-9]`.
-/

namespace Verif.Version

open Txt

/-- The exceptions of this module. -/
inductive Err where
  | notThisMethod | attributeError | indexError | keyError | valueError
  deriving DecidableEq, Repr

/-- What `get_versions` returns. -/
structure Versions where
  version : Str
  full : Option Str
  dirty : Option Bool
  error : Option Str
  date : Option Str
  deriving DecidableEq

/-- How starting a program ends: `OSError` with `ENOENT`, another `OSError`, or output and return code. -/
inductive Proc where
  | missing
  | unable
  | done (out : Str) (rc : Int)

/-- The machine: `sys.platform == "win32"` and what a command gives in the root of the source tree. -/
structure System where
  windows : Bool
  proc : Str → List Str → Proc

/-- The characters `bytes.strip` removes. -/
def isByteSpace (c : Char) : Bool := (9 ≤ c.toNat && c.toNat ≤ 13) || c.toNat = 32

/-- `s.strip(chars)`. -/
def stripBy (p : Char → Bool) (s : Str) : Str := ((s.dropWhile p).reverse.dropWhile p).reverse

/-- _version.py:80-125 `run_command`. -/
def runCommand (sys : System) : List Str → List Str → Option Str × Option Int
  | [], _ => (none, none)
  | c :: cs, args => match sys.proc c args with
    | .missing => runCommand sys cs args
    | .unable => (none, none)
    | .done out rc => if rc ≠ 0 then (none, some rc) else (some (stripBy isByteSpace out), some rc)

/-- `os.path.basename(p)`. -/
def basename (p : Str) : Str := (p.reverse.takeWhile (· != '/')).reverse

/-- `os.path.dirname(p)`. -/
def dirname (p : Str) : Str :=
  let head := (p.reverse.dropWhile (· != '/')).reverse
  if head.all (· == '/') then head else (head.reverse.dropWhile (· == '/')).reverse

/-- _version.py:141-152: the loop of `versions_from_parentdir`. -/
def searchUp (pre : Str) : Nat → Str → Except Err Versions
  | 0, _ => .error .notThisMethod
  | n + 1, root =>
    let name := basename root
    if pre.isPrefixOf name then .ok ⟨name.drop pre.length, none, some false, none, none⟩
    else searchUp pre n (dirname root)

/-- _version.py:128-153 `versions_from_parentdir`. -/
def versionsFromParentdir (pre root : Str) : Except Err Versions := searchUp pre 3 root

/-- The characters at which `str.splitlines` splits. -/
def isBreak (c : Char) : Bool :=
  let n := c.toNat
  (10 ≤ n && n ≤ 13) || (28 ≤ n && n ≤ 30) || n = 133 || n = 8232 || n = 8233

/-- `s.splitlines()`. -/
def splitlines : Str → List Str
  | [] => []
  | '\r' :: '\n' :: s => [] :: splitlines s
  | c :: s => if isBreak c then [] :: splitlines s else match splitlines s with
    | [] => [[c]]
    | p :: ps => (c :: p) :: ps

/-- `s.replace(c, t, 1)`. -/
def replaceFirst (c : Char) (t : Str) : Str → Str
  | [] => []
  | d :: s => if d = c then t ++ s else d :: replaceFirst c t s

/-- `date.splitlines()[-1]` and `date.strip().replace(" ", "T", 1).replace(" ", "", 1)`. -/
def isoDate (s : Str) : Except Err Str :=
  match (splitlines s).getLast? with
  | none => .error .indexError
  | some l => .ok (replaceFirst ' ' [] (replaceFirst ' ' ['T'] (strip l)))

/-- The keywords git writes into the file (_version.py:23-32). -/
structure Keywords where
  refnames : Option Str
  full : Option Str
  date : Option Str

/-- `d[k]`. -/
def required {α : Type} : Option α → Except Err α
  | some x => .ok x
  | none => .error .keyError

/-- _version.py:211-224: the tags among the names of a commit. -/
def tagsOf (refnames : Str) : List Str :=
  let refs := (splitOn ',' (stripBy (fun c => c == '(' || c == ')') refnames)).map strip
  let tag := "tag: ".toList
  let tags := (refs.filter fun r => tag.isPrefixOf r).map fun r => r.drop tag.length
  if tags.isEmpty then refs.filter fun r => r.any isDigit else tags

/-- `re.match(r'\d', r)`. -/
def startsDigit (r : Str) : Bool := match r with
  | c :: _ => isDigit c
  | [] => false

/-- _version.py:185-249 `git_versions_from_keywords`. -/
def versionsFromKeywords (kw : Keywords) (pre : Str) : Except Err Versions := do
  let refnames ← match kw.refnames with
    | some r => pure r
    | none => .error .notThisMethod
  let date ← match kw.date with
    | some d => (isoDate d).map some
    | none => pure none
  let refnames := strip refnames
  if "$Format".toList.isPrefixOf refnames then .error .notThisMethod
  else
    let tags := (tagsOf refnames).insertionSort (· ≤ ·)
    match tags.find? fun r => pre.isPrefixOf r && startsDigit (r.drop pre.length) with
    | some r => do
      let full ← required kw.full
      pure ⟨r.drop pre.length, some (strip full), some false, none, date⟩
    | none => do
      let full ← required kw.full
      pure ⟨"0+unknown".toList, some (strip full), some false, some "no suitable tags".toList, none⟩

/-- The pieces of a version (_version.py:298-387). -/
structure Pieces where
  long : Str
  short : Str
  branch : Option Str
  dirty : Bool
  closestTag : Option Str
  distance : Nat
  date : Option Str
  deriving DecidableEq

/-- What `git_pieces_from_vcs` returns: pieces with an error, or all of them. -/
inductive Found where
  | unreadable (long error : Str)
  | pieces (p : Pieces)

/-- `s[:i]` and `s[i+1:]` at the last `c`. -/
def rcut (c : Char) (s : Str) : Option (Str × Str) :=
  let b := s.reverse.takeWhile (· != c)
  if c ∈ s then some ((s.reverse.drop (b.length + 1)).reverse, b.reverse) else none

/-- Character class `[0-9a-f]`. -/
def isHex (c : Char) : Bool := isDigit c || (97 ≤ c.toNat && c.toNat ≤ 102)

/-- _version.py:350 `re.search(r'^(.+)-(\d+)-g([0-9a-f]+)$', s)`: the groups, the second as a number. -/
def parseDescribe (s : Str) : Option (Str × Nat × Str) := do
  -- `$` also matches before a line feed at the end
  let s := if s.getLast? = some '\n' then s.dropLast else s
  let (a, g) ← rcut '-' s
  let (t, n) ← rcut '-' a
  match g with
  | 'g' :: h =>
    if h ≠ [] ∧ h.all isHex ∧ n ≠ [] ∧ n.all isDigit ∧ t ≠ [] ∧ '\n' ∉ t then some (t, parseNat n, h) else none
  | _ => none

/-- `s.split()`. -/
def words (s : Str) : List Str := (s.splitOnP isSpace).filter fun p => decide (p ≠ [])

/-- _version.py:303-334: the branch, from `git rev-parse --abbrev-ref HEAD` and `git branch --contains`. -/
def branchOf (git : List Str → Option Str × Option Int) : Except Err (Option Str) := do
  let (name, rc) := git ["rev-parse".toList, "--abbrev-ref".toList, "HEAD".toList]
  match name with
  | none => .error .notThisMethod
  | some name => if rc ≠ some 0 then .error .notThisMethod else
    if strip name = "HEAD".toList then
      let (out, rc) := git ["branch".toList, "--contains".toList]
      match out with
      | none => .error .notThisMethod
      | some out => if rc ≠ some 0 then .error .notThisMethod else
        let bs := splitOn '\n' out
        let bs := if '(' ∈ bs.headD [] then bs.drop 1 else bs
        let bs := bs.map fun b => b.drop 2
        if "master".toList ∈ bs then pure (some "master".toList) else pure bs.head?
    else pure (some (strip name))

/-- `x.strip()` of an answer that may be `None`. -/
def stripped : Option Str → Except Err Str
  | some s => .ok (strip s)
  | none => .error .attributeError

/-- The commands tried for git (_version.py:265-267). -/
def gits (sys : System) : List Str :=
  if sys.windows then ["git.cmd".toList, "git.exe".toList] else ["git".toList]

/-- The arguments of `git describe` (_version.py:285-288). -/
def describeArgs (pre : Str) : List Str :=
  ["describe".toList, "--tags".toList, "--dirty".toList, "--always".toList, "--long".toList, "--match".toList,
    pre ++ "[[:digit:]]*".toList]

/-- _version.py:253-387 `git_pieces_from_vcs`. -/
def gitPieces (sys : System) (pre : Str) : Except Err Found := do
  let git := runCommand sys (gits sys)
  if (git ["rev-parse".toList, "--git-dir".toList]).2 ≠ some 0 then .error .notThisMethod
  else
  let describe ← match (git (describeArgs pre)).1 with
    | some s => pure (strip s)
    | none => .error .notThisMethod
  let full ← match (git ["rev-parse".toList, "HEAD".toList]).1 with
    | some s => pure (strip s)
    | none => .error .notThisMethod
  let branch ← branchOf git
  let dirty := "-dirty".toList.isSuffixOf describe
  let text := if dirty then describe.take (describe.length - 6) else describe
  let date : Except Err Str := do
    let d ← stripped (git ["show".toList, "-s".toList, "--format=%ci".toList, "HEAD".toList]).1
    isoDate d
  if '-' ∈ text then
    match parseDescribe text with
    | none => pure (.unreadable full ("unable to parse git-describe output: '".toList ++ describe ++ "'".toList))
    | some (tag, n, h) =>
      if ¬pre.isPrefixOf tag then
        pure (.unreadable full ("tag '".toList ++ tag ++ "' doesn't start with prefix '".toList ++ pre ++ "'".toList))
      else do
        let d ← date
        pure (.pieces ⟨full, h, branch, dirty, some (tag.drop pre.length), n, some d⟩)
  else
    match (git ["rev-list".toList, "HEAD".toList, "--left-right".toList]).1 with
    | none => .error .attributeError
    | some out => do
      let d ← date
      pure (.pieces ⟨full, full.take 7, branch, dirty, none, (words out).length, some d⟩)

/-- `pieces["closest-tag"]` as a condition: neither `None` nor empty. -/
def Pieces.tag? (p : Pieces) : Option Str := match p.closestTag with
  | some (c :: t) => some (c :: t)
  | _ => none

/-- _version.py:390-394 `plus_or_dot`. -/
def plusOrDot (tag : Str) : Str := if '+' ∈ tag then ['.'] else ['+']

/-- `s` if `b`. -/
def opt (b : Bool) (s : String) : Str := if b then s.toList else []

/-- _version.py:397-419 `render_pep440`. -/
def renderPep440 (p : Pieces) : Str := match p.tag? with
  | some t =>
    if p.distance ≠ 0 ∨ p.dirty then
      t ++ plusOrDot t ++ decimal p.distance ++ ".g".toList ++ p.short ++ opt p.dirty ".dirty"
    else t
  | none => "0+untagged.".toList ++ decimal p.distance ++ ".g".toList ++ p.short ++ opt p.dirty ".dirty"

/-- `pieces["branch"] != "master"`. -/
def Pieces.aside (p : Pieces) : Bool := decide (p.branch ≠ some "master".toList)

/-- _version.py:422-449 `render_pep440_branch`. -/
def renderPep440Branch (p : Pieces) : Str := match p.tag? with
  | some t =>
    if p.distance ≠ 0 ∨ p.dirty then
      t ++ opt p.aside ".dev0" ++ plusOrDot t ++ decimal p.distance ++ ".g".toList ++ p.short ++ opt p.dirty ".dirty"
    else t
  | none =>
    "0".toList ++ opt p.aside ".dev0" ++ "+untagged.".toList ++ decimal p.distance ++ ".g".toList ++ p.short ++
      opt p.dirty ".dirty"

/-- `str.split(s, sep)` for a text `sep` that is not empty. -/
def splitText (sep : Str) : Nat → Str → List Str
  | 0, s => [s]
  | _ + 1, [] => [[]]
  | n + 1, c :: s =>
    if sep.isPrefixOf (c :: s) then [] :: splitText sep n ((c :: s).drop sep.length)
    else match splitText sep n s with
      | [] => [[c]]
      | p :: ps => (c :: p) :: ps

/-- _version.py:452-459 `pep440_split_post`; `int` of a text that is not a row of digits is a `ValueError` here. -/
def splitPost (ver : Str) : Except Err (Str × Option Nat) :=
  match splitText ".post".toList ver.length ver with
  | [a, []] => .ok (a, some 0)
  | [a, b] => if b.all isDigit then .ok (a, some (parseNat b)) else .error .valueError
  | a :: _ => .ok (a, none)
  | [] => .ok ([], none)

/-- _version.py:462-483 `render_pep440_pre`. -/
def renderPep440Pre (p : Pieces) : Except Err Str := match p.tag? with
  | some t =>
    if p.distance ≠ 0 then do
      let (v, post) ← splitPost t
      match post with
      | some k => pure (v ++ ".post".toList ++ decimal (k + 1) ++ ".dev".toList ++ decimal p.distance)
      | none => pure (v ++ ".post0.dev".toList ++ decimal p.distance)
    else .ok t
  | none => .ok ("0.post0.dev".toList ++ decimal p.distance)

/-- _version.py:486-510 `render_pep440_post`. -/
def renderPep440Post (p : Pieces) : Str := match p.tag? with
  | some t =>
    if p.distance ≠ 0 ∨ p.dirty then
      t ++ ".post".toList ++ decimal p.distance ++ opt p.dirty ".dev0" ++ plusOrDot t ++ "g".toList ++ p.short
    else t
  | none => "0.post".toList ++ decimal p.distance ++ opt p.dirty ".dev0" ++ "+g".toList ++ p.short

/-- _version.py:513-539 `render_pep440_post_branch`. -/
def renderPep440PostBranch (p : Pieces) : Str := match p.tag? with
  | some t =>
    if p.distance ≠ 0 ∨ p.dirty then
      t ++ ".post".toList ++ decimal p.distance ++ opt p.aside ".dev0" ++ plusOrDot t ++ "g".toList ++ p.short ++
        opt p.dirty ".dirty"
    else t
  | none =>
    "0.post".toList ++ decimal p.distance ++ opt p.aside ".dev0" ++ "+g".toList ++ p.short ++ opt p.dirty ".dirty"

/-- _version.py:542-561 `render_pep440_old`. -/
def renderPep440Old (p : Pieces) : Str := match p.tag? with
  | some t =>
    if p.distance ≠ 0 ∨ p.dirty then t ++ ".post".toList ++ decimal p.distance ++ opt p.dirty ".dev0" else t
  | none => "0.post".toList ++ decimal p.distance ++ opt p.dirty ".dev0"

/-- _version.py:564-581 `render_git_describe`. -/
def renderGitDescribe (p : Pieces) : Str :=
  (match p.tag? with
    | some t => if p.distance ≠ 0 then t ++ "-".toList ++ decimal p.distance ++ "-g".toList ++ p.short else t
    | none => p.short) ++ opt p.dirty "-dirty"

/-- _version.py:584-601 `render_git_describe_long`. -/
def renderGitDescribeLong (p : Pieces) : Str :=
  (match p.tag? with
    | some t => t ++ "-".toList ++ decimal p.distance ++ "-g".toList ++ p.short
    | none => p.short) ++ opt p.dirty "-dirty"

/-- _version.py:604-637 `render`. -/
def render (f : Found) (style : String) : Except Err Versions := match f with
  | .unreadable long e => .ok ⟨"unknown".toList, some long, none, some e, none⟩
  | .pieces p => do
    let style := if style = "" ∨ style = "default" then "pep440" else style
    let rendered ← match style with
      | "pep440" => .ok (renderPep440 p)
      | "pep440-branch" => .ok (renderPep440Branch p)
      | "pep440-pre" => renderPep440Pre p
      | "pep440-post" => .ok (renderPep440Post p)
      | "pep440-post-branch" => .ok (renderPep440PostBranch p)
      | "pep440-old" => .ok (renderPep440Old p)
      | "git-describe" => .ok (renderGitDescribe p)
      | "git-describe-long" => .ok (renderGitDescribeLong p)
      | _ => .error .valueError
    pure ⟨rendered, some p.long, some p.dirty, none, p.date⟩

/-- The configuration (_version.py:47-57). -/
structure Cfg where
  style : String := "pep440"
  tagPrefix : Str := []
  parentdirPrefix : Str := "metsim-".toList
  versionfileSource : Str := "metsim/_version.py".toList

/-- `except NotThisMethod: pass`. -/
def orElse (a b : Except Err Versions) : Except Err Versions := match a with
  | .error .notThisMethod => b
  | r => r

/-- _version.py:640-683 `get_versions`; `file` is `os.path.realpath(__file__)`, if there is a `__file__`. -/
def getVersions (cfg : Cfg) (kw : Keywords) (sys : System) (file : Option Str) : Except Err Versions :=
  orElse (versionsFromKeywords kw cfg.tagPrefix) <|
  match file with
  | none => .ok ⟨"0+unknown".toList, none, none, some "unable to find root of source tree".toList, none⟩
  | some file =>
    let root := (splitOn '/' cfg.versionfileSource).foldl (fun r _ => dirname r) file
    orElse (do render (← gitPieces sys cfg.tagPrefix) cfg.style) <|
    orElse (if cfg.parentdirPrefix = [] then .error .notThisMethod else versionsFromParentdir cfg.parentdirPrefix root) <|
    .ok ⟨"0+unknown".toList, none, none, some "unable to compute version".toList, none⟩

/-- The keywords in a source tree that is not an archive (_version.py:28-30). -/
def unexpanded : Keywords := ⟨some "$Format:%d$".toList, some "$Format:%H$".toList, some "$Format:%ci$".toList⟩

/-- __init__.py:8 `__version__`. -/
def version (kw : Keywords) (sys : System) (file : Option Str) : Except Err Str :=
  (getVersions {} kw sys file).map Versions.version

/-- cli/ms.py:52 what `ms --version` prints. -/
def shown (v : Str) : Str := "metsim ".toList ++ v

end Verif.Version
