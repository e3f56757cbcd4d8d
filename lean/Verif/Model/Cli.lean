import Verif.Model.Main

/-!
# The command line (`metsim/cli/ms.py:32-62`)

`argparse` as of Python 3.6 to 3.11.
-/

namespace Verif.Cli

open Txt ConfigRead

/-- How the program ends before it has read a configuration. -/
inductive Exit where
  /-- status 0, after the help text or the version -/
  | shown
  /-- status 1: cli/ms.py:32-37 -/
  | noFile
  /-- status 2: `parser.error` -/
  | usage
  deriving DecidableEq, Repr

/-- The options, by what they do. -/
inductive Act where
  | help
  | numWorkers
  | scheduler
  | verbose
  | version
  deriving DecidableEq, Repr

/-- cli/ms.py:42-53, with the option `-h` that `ArgumentParser` adds. -/
def options : Dict Str Act :=
  [("-h".toList, .help), ("--help".toList, .help), ("-n".toList, .numWorkers), ("--num_workers".toList, .numWorkers),
   ("-s".toList, .scheduler), ("--scheduler".toList, .scheduler), ("-v".toList, .verbose), ("--verbose".toList, .verbose),
   ("--version".toList, .version)]

/-- Options followed by an argument. -/
def Act.takes : Act → Bool
  | .numWorkers => true
  | .scheduler => true
  | _ => false

/-- `ArgumentParser._negative_number_matcher`: `^-\d+$|^-\d*\.\d+$` -/
def negative : Str → Bool
  | '-' :: s =>
    let a := s.takeWhile isDigit
    match s.dropWhile isDigit with
    | [] => a ≠ []
    | '.' :: b => b ≠ [] ∧ b.all isDigit
    | _ => false
  | _ => false

/-- An argument as `argparse` sees it. -/
inductive Tok where
  | arg (s : Str)
  /-- what it does (`none`: nothing known), the option, and what is written behind it in the same argument -/
  | opt (act : Option Act) (name : Str) (value : Option Str)
  | dashes
  deriving DecidableEq, Repr

/-- `ArgumentParser._get_option_tuples`: options that are meant by an argument that is none. -/
def meant (s : Str) : List Tok :=
  if s.take 2 = "--".toList then
    let (pre, value) := if '=' ∈ s then (s.takeWhile (· ≠ '='), some ((s.dropWhile (· ≠ '=')).drop 1)) else (s, none)
    (options.filter fun q => pre.isPrefixOf q.1).map fun q => .opt (some q.2) q.1 value
  else
    options.filterMap fun q =>
      if q.1 = s.take 2 then some (.opt (some q.2) q.1 (some (s.drop 2)))
      else if s.isPrefixOf q.1 then some (.opt (some q.2) q.1 none)
      else none

/-- `ArgumentParser._parse_optional`, after the first lines. -/
def classifyOpt (s : Str) : Except Exit Tok :=
  match meant s with
  | [] => if negative s then .ok (.arg s) else if ' ' ∈ s then .ok (.arg s) else .ok (.opt none s none)
  | [t] => .ok t
  | _ => .error .usage

/-- `ArgumentParser._parse_optional` -/
def classify (s : Str) : Except Exit Tok :=
  if s.head? ≠ some '-' then .ok (.arg s)
  else match options.get? s with
    | some a => .ok (.opt (some a) s none)
    | none =>
      if s.length = 1 then .ok (.arg s)
      else if '=' ∈ s then
        match options.get? (s.takeWhile (· ≠ '=')) with
        | some a => .ok (.opt (some a) (s.takeWhile (· ≠ '=')) (some ((s.dropWhile (· ≠ '=')).drop 1)))
        | none => classifyOpt s
      else classifyOpt s

/-- `ArgumentParser._parse_known_args`, first loop: behind `--` there are no options. -/
def tokens : List Str → Except Exit (List Tok)
  | [] => .ok []
  | s :: rest =>
    if s = "--".toList then .ok (.dashes :: rest.map .arg)
    else do
      let t ← classify s
      let ts ← tokens rest
      pure (t :: ts)

/-- What the program is given by its surroundings. -/
structure Shell where
  /-- `os.path.isfile` -/
  isFile : Str → Bool
  /-- `int()` of a text -/
  toInt : Str → Option Int

/-- The namespace of parsed arguments, and whether there are arguments nothing is known of. -/
structure St where
  config : Option Str := none
  opts : Opts := ⟨"distributed", 1, false⟩
  extra : Bool := false

/-- The action of an option. -/
def act (sh : Shell) (st : St) : Act → Str → Except Exit St
  | .help, _ => .error .shown
  | .version, _ => .error .shown
  | .verbose, _ => .ok { st with opts := { st.opts with verbose := true } }
  | .scheduler, s => .ok { st with opts := { st.opts with scheduler := String.ofList s } }
  | .numWorkers, s => match sh.toInt s with
    | some k => .ok { st with opts := { st.opts with numWorkers := k } }
    | none => .error .usage

/-- The action of the argument `config`. -/
def setConfig (sh : Shell) (st : St) (s : Str) : Except Exit St :=
  if sh.isFile s then .ok { st with config := some s } else .error .noFile

/-- `consume_optional` with something written behind an option of one letter that has no argument: more options of one letter, the last of
which may have an argument.  The result: the options, the last of them, and what is written behind that. -/
def cluster : Act → Str → Except Exit (List Act × Act × Option Str)
  | a, [] => if a.takes then .ok ([], a, some []) else .error .usage
  | a, c :: s =>
    if a.takes then .ok ([], a, some (c :: s))
    else match options.get? ['-', c] with
      | none => .error .usage
      | some b =>
        if s = [] then .ok ([a], b, none)
        else do
          let (as, l, v) ← cluster b s
          pure (a :: as, l, v)

/-- `consume_optional`, up to the arguments of the last option. -/
def unfold (a : Act) (name : Str) : Option Str → Except Exit (List Act × Act × Option Str)
  | none => .ok ([], a, none)
  | some v =>
    if a.takes then .ok ([], a, some v)
    else if name.drop 1 |>.head? |> (· = some '-') then .error .usage
    else cluster a v

/-- `consume_positionals` and `consume_optional`: what an argument does, and whether the one behind it goes with it. -/
def step (sh : Shell) (t : Tok) (rest : List Tok) (st : St) : Except Exit (St × Bool) :=
  match t with
  | .arg s => match st.config with
    | some _ => .ok ({ st with extra := true }, false)
    | none => do
      let st ← setConfig sh st s
      pure (st, decide (rest.head? = some .dashes))
  | .dashes => match st.config, rest with
    | none, .arg _ :: _ => .ok (st, false)
    | _, _ => .ok ({ st with extra := true }, false)
  | .opt none _ _ => .ok ({ st with extra := true }, false)
  | .opt (some a) name value => do
    let (as, l, v) ← unfold a name value
    match l.takes, v, rest with
    | false, _, _ => do
      let st ← (as ++ [l]).foldlM (fun st a => act sh st a []) st
      pure (st, false)
    -- `_get_values` takes `--` out of the arguments
    | true, some s, _ => if s = "--".toList then .error .usage else do
      let st ← as.foldlM (fun st a => act sh st a []) st
      let st ← act sh st l s
      pure (st, false)
    | true, none, .arg s :: _ => do
      let st ← as.foldlM (fun st a => act sh st a []) st
      let st ← act sh st l s
      pure (st, true)
    | true, none, _ => .error .usage

/-- The loop over the arguments; `used`: the first one has been dealt with. -/
def consume (sh : Shell) : List Tok → Bool → St → Except Exit St
  | [], _, st => .ok st
  | _ :: rest, true, st => consume sh rest false st
  | t :: rest, false, st => do
    let (st, used) ← step sh t rest st
    consume sh rest used st

/-- cli/ms.py:40-54 `parse`: the configuration file and the options. -/
def parse (sh : Shell) (args : List Str) : Except Exit (Str × Opts) := do
  let ts ← tokens args
  let st ← consume sh ts false {}
  match st.config with
  | none => .error .usage
  | some s => if st.extra then .error .usage else pure (s, st.opts)

/-- cli/ms.py:57-62 `main`: how it ends, if not with a run. -/
inductive Failure where
  | exit (e : Exit)
  | error (e : PyErr)

/-- cli/ms.py:57-62 `main`; `lines` are the lines of a file. -/
noncomputable def main (w : Main.World) (sh : Shell) (lines : Str → List Str) (fuel : Nat) (args : List Str)
    (order : List (Dict String Chunk.Slice)) : Except Failure Nc.Dir :=
  match parse sh args with
  | .error e => .error (.exit e)
  | .ok (config, opts) => match Main.runText w fuel opts (lines config) order with
    | .error e => .error (.error e)
    | .ok dir => .ok dir

end Verif.Cli
