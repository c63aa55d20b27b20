import Verif.Model.Runs

/-!
# The command line (`app_main.cpp`)

What each sub-program does with its options is a parameter here (`Body`); the programs are modelled in their own files.
-/

namespace Verif.Main
open Verif Verif.Text Verif.Config Verif.Runs

variable {τ σ μ : Type}

/-- The sub-programs: `app_main.cpp:41-47`. -/
inductive SubProg where
  | boilerplate | partdom | sedov | cloud | binary | amrsand | test
deriving DecidableEq

/-- The names that `app_main.cpp:57-63` files the sub-programs under. -/
def SubProg.name : SubProg → Str
  | .boilerplate => "boilerplate".toList
  | .partdom => "partdom".toList
  | .sedov => "sedov".toList
  | .cloud => "cloud".toList
  | .binary => "binary".toList
  | .amrsand => "amrsand".toList
  | .test => "test".toList

/-- The sub-programs in the order of `app_main.cpp:57-63`. -/
def allProgs : List SubProg := [.boilerplate, .partdom, .sedov, .cloud, .binary, .amrsand, .test]

/-- `app_main.cpp:55-63`: the map of the sub-programs.  `compiled` has the values of the macros `MARA_COMPILE_SUBPROGRAM_*`. -/
def programs (compiled : SubProg → Bool) : SMap SubProg :=
  (allProgs.filter compiled).foldl (fun m p => SMap.set m p.name p) []

/-- `app_main.cpp:67-72`: the lines of the list of sub-programs.  Iterating over a `std::map` visits the keys in
lexicographic order. -/
def usageLines (compiled : SubProg → Bool) : List Str :=
  "usages: ".toList ::
    ((programs compiled).keys.mergeSort fun a b => decide (a ≤ b)).map fun n => "    mara ".toList ++ n

/-- `app_main.cpp:53-95` `main`: the exit code, and the lines that `main` itself prints, except for the execution time.
`argv` is the whole of the command line with the name of the executable first; without even that, `argv[1]` is past the null
pointer that ends the array.  `run` is `sub_program_t::main` of each sub-program; exceptions are not caught. -/
def main (compiled : SubProg → Bool) (run : SubProg → List Str → Outcome Int) (argv : List Str) :
    Outcome (Int × List Str) :=
  match argv with
  | [] => .ub
  | [_] => .ok (0, usageLines compiled)
  | _ :: name :: args =>
    match (programs compiled).get? name with
    | some p => (run p (name :: args)).map fun code => (code, [])
    | none => .ok (0, ["invalid sub-program '".toList ++ name ++ "'".toList])

/-- What the sub-programs are made of: the options they declare, and what they do with them.  `config_template`:
subprog_boilerplate.cpp, subprog_partdom.cpp:44-49, subprog_sedov.cpp, subprog_cloud.cpp, subprog_binary.cpp,
subprog_amrsand.cpp. -/
structure Body (τ : Type) where
  template : SubProg → Template τ
  simulate : SubProg → Config τ → Outcome Int
  catch2 : List Str → Outcome Int

/-- How the sub-programs make their configuration from the options given: `create_run_config` for those that can restart
(subprog_binary.cpp:155-164, subprog_boilerplate.cpp:179-188, subprog_sedov.cpp:470-479, subprog_cloud.cpp:743-752);
subprog_amrsand.cpp:355 and subprog_partdom.cpp:62-64 update the defaults. -/
def settings (stod : Str → Outcome τ) (t : Template τ) (fs : Str → Option (Checkpoint σ τ μ)) (p : SubProg)
    (args : SMap Str) : Outcome (Config τ) :=
  match p with
  | .partdom | .amrsand => (Template.create t).updateText stod args
  | .cloud => createRunConfig stod t fs kConfig args
  | _ => createRunConfig stod t fs kRunConfig args

/-- `sub_program_t::main` of each sub-program.  `subprog_test.cpp:44-48` hands its arguments to the test library. -/
def subMain (stod : Str → Outcome τ) (fs : Str → Option (Checkpoint σ τ μ)) (b : Body τ) (p : SubProg)
    (argv : List Str) : Outcome Int :=
  match p with
  | .test => b.catch2 argv
  | _ => (argvToStringMap argv).bind fun args =>
      (settings stod (b.template p) fs p args).bind fun c => b.simulate p c

end Verif.Main
