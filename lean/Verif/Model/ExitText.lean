import Verif.Model.Greedy
import Verif.Model.PrintText

/-! The text of `exit_information` in the result of the greedy classes. -/

namespace BFit

open Classical

noncomputable section

/-- `_final_exit_info` (greedy.py:641-653) with the text it returns; `str` is Python's `str` for floats. -/
def finalExitText (str : XR → Str) (numFunc maxFunc : ℤ) (best prev thr : XR) : Py Str :=
  if ¬ numFunc < maxFunc - 1 then .ok (chars! "Max number of functions reached,  " ++ fmtD numFunc)
  else if (best - prev).abs < thr then
    .ok (chars! "Cost function is less than some epsilon: " ++ (str (best - prev) ++ (chars! " <= " ++ str thr)))
  else raise .runtimeError

/-- The text in `exit_information` (greedy.py:604-613). -/
def GState.exitText (str : XR → Str) (o : GOpts) (s : GState) : Py Str :=
  if s.redum = 5 then
    .ok (chars! "Next Iteration Did Not Find The Best Choice at" ++ (chars! " number of s-type " ++
      (fmtD s.numS ++ (chars! " and p-type " ++ fmtD s.numP))))
  else finalExitText str s.numbFuncs o.maxFuncs s.best s.prev o.dThr

/-- The end of `run` (greedy.py:604-639) with the text; the other entries of the result as in `GEnv.finish`. -/
def GEnv.finishText (str : XR → Str) (E : GEnv) (o : GOpts) (s : GState) : Py (GResult × Str × GObj) :=
  match s.exitText str o with
  | .error e => .error e
  | .ok w => match E.finish o s with
    | .error e => .error e
    | .ok (r, ob) => .ok (r, w, ob)

/-- `GreedyStrategy.run` (greedy.py:447-639): the result, the text in its `exit_information` and the changed
object. -/
def GEnv.runText (str : XR → Str) (E : GEnv) (ob : GObj) (factor : PyObj) (o : GOpts) : Py (GResult × Str × GObj) :=
  match factor with
  | .float f =>
    if f ≤ XR.fin 0 then raise .valueError
    else match E.start ob f with
      | .error e => .error e
      | .ok s => match E.loop o f (5 * (o.maxFuncs - 1).toNat) s with
        | .error e => .error e
        | .ok s' => E.finishText str o s'
  | _ => raise .typeError

end
end BFit
