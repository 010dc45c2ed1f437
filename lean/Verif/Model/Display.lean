import Verif.Model.Greedy

/-! What `run(..., disp=True)` prints.  A line of output is kept as the numbers in it; the text around them and their
formatting, which does not raise, are in `Model/PrintText.lean`. -/

namespace BFit

open Classical

noncomputable section

/-- A printed line: a rule `-----`, a heading, a row of one of the tables (fit.py:383-385, 413-415; fit.py:621-623,
632, 649; greedy.py:438-444, 599-602), or one of the closing lines (fit.py:428-431, 684-688; greedy.py:622-628). -/
inductive Line where
  | rule
  | heading
  | fpiRow (iteration : ℕ) (p : Perf) (dCoeffs dExps dObjective : XR)
  | scipyRow (p : Perf)
  | greedyRow (functions : ℤ) (numS numP : ℕ) (p : Perf) (dObjective : XR)
  | success (b : Bool)
  | time
  | message (s : String)
  | numS (n : ℕ)
  | numP (n : ℕ)
  | exitInfo (i : ExitInfo)
  | objective (v : XR)
  | coeffs (c : List XR)
  | exps (e : List XR)

/-! ### KLDivergenceFPI -/

/-- The row printed after an update (fit.py:412-415). -/
def FPIState.row (s : FPIState) : List Line :=
  match s.performance.getLast? with
  | none => []
  | some p => [.fpiRow s.performance.length p s.maxDC s.maxDE s.diffDiv]

/-- The `while` loop with output (fit.py:387-415); `out` is what has been printed before. -/
def FPI.loopD (F : FPI) (o : FPIOpts) (disp : Bool) : ℕ → FPIState → List Line → List Line × Py FPIState
  | 0, s, out => (out, .ok s)
  | n + 1, s, out =>
    if s.notConverged o then
      match F.step o s with
      | .error e => (out, .error e)
      | .ok s' => FPI.loopD F o disp n s' (out ++ if disp then s'.row else [])
    else (out, .ok s)

/-- `KLDivergenceFPI.run` with output (fit.py:304-440): what is printed, and the result or the exception. -/
def FPI.runD (F : FPI) (c0 e0 : PyObj) (o : FPIOpts) (disp : Bool) : List Line × Py FPIResult :=
  match c0, e0 with
  | .arr c, .arr e =>
    if c.shape.map Int.ofNat ≠ [F.model.nbasis] then ([], raise .valueError)
    else if e.shape.map Int.ofNat ≠ [F.model.nbasis] then ([], raise .valueError)
    else match F.loopD o disp o.maxiter.toNat ⟨c.data, e.data, XR.pinf, XR.pinf, XR.pinf, []⟩
        (if disp then [.rule, .heading, .rule] else []) with
      | (out, .error err) => (out, .error err)
      | (out, .ok s) =>
        let success : Bool :=
          decide ¬ ((o.maxiter = s.performance.length ∧ s.diffDiv > o.dThr) ∨ s.diffDiv = XR.nan)
        (out ++ (if disp then [.rule, .success success, .time, .coeffs s.cs, .exps s.es] else []),
          .ok ⟨s.cs, s.es, s.performance.map Perf.kl, success, s.performance⟩)
  | _, _ => ([], raise .typeError)

/-! ### GreedyStrategy -/

/-- The row printed after a round (greedy.py:598-602). -/
def GState.row (s : GState) : List Line :=
  match s.errArr.getLast? with
  | none => []
  | some p => [.greedyRow s.numbFuncs s.numS s.numP p (s.best - s.prev).abs]

/-- `_print_header` (greedy.py:423-445): its last line shows the number 1, the counts of the object, the errors of
the first solution and `nan`. -/
def GState.head (s : GState) : List Line :=
  [.rule, .heading, .rule] ++
    match s.errArr.getLast? with
    | none => []
    | some p => [.greedyRow 1 s.numS s.numP p XR.nan]

/-- The `while` loop with output (greedy.py:520-602). -/
def GEnv.loopD (E : GEnv) (o : GOpts) (factor0 : XR) (disp : Bool) : ℕ → GState → List Line → List Line × Py GState
  | 0, s, out => (out, .ok s)
  | n + 1, s, out =>
    if s.continues o then
      match E.step o factor0 s with
      | .error e => (out, .error e)
      | .ok s' => GEnv.loopD E o factor0 disp n s' (out ++ if disp then s'.row else [])
    else (out, .ok s)

/-- `GreedyStrategy.run` with output (greedy.py:447-639): what is printed, and the result with the changed object or
the exception. -/
def GEnv.runD (E : GEnv) (ob : GObj) (factor : PyObj) (o : GOpts) (disp : Bool) :
    List Line × Py (GResult × GObj) :=
  match factor with
  | .float f =>
    if f ≤ XR.fin 0 then ([], raise .valueError)
    else match E.start ob f with
      | .error e => ([], .error e)
      | .ok s => match E.loopD o f disp (5 * (o.maxFuncs - 1).toNat) s (if disp then s.head else []) with
        | (out, .error e) => (out, .error e)
        | (out, .ok s') => match E.finish o s' with
          | .error e => (out, .error e)
          | .ok (r, ob') =>
            (out ++ (if disp then [.rule, .success r.success, .numS r.numS, .numP r.numP, .exitInfo r.exitInformation,
                .objective r.fun_, .coeffs r.coeffs, .exps r.exps] else []),
              .ok (r, ob'))
  | _ => ([], raise .typeError)

/-! ### ScipyFit -/

/-- `print_results` (fit.py:625-632, 642-649): the errors shown for an iterate of the optimiser, which is split at
`len(c0)`. -/
def SFit.shown (S : SFit) (c0 e0 : List XR) (o : SOpts) (xk : List XR) : Py Perf :=
  if o.optCoeffs && o.optExpons then S.goodness (xk.take c0.length) (xk.drop c0.length)
  else if o.optCoeffs then S.goodness xk e0
  else S.goodness c0 xk

/-- The calls of `callback` during an optimisation (fit.py:633, 650, 664) at the iterates `xs`; an exception in a
call ends the optimisation. -/
def SFit.callbacks (S : SFit) (c0 e0 : List XR) (o : SOpts) : List (List XR) → List Line → List Line × Option PyErr
  | [], out => (out, none)
  | xk :: xs, out => match S.shown c0 e0 o xk with
    | .error e => (out, some e)
    | .ok p => SFit.callbacks S c0 e0 o xs (out ++ [.scipyRow p])

/-- `ScipyFit.run` with output (fit.py:519-698).  `minimize` is an arbitrary optimiser: the iterates at which it calls
`callback`, and its result.  Lines that the optimiser prints itself are left out. -/
def SFit.runD (S : SFit) (minimize : SProblem → List (List XR) × Py SRes) (c0 e0 : List XR) (o : SOpts) (disp : Bool) :
    List Line × Py SResult :=
  match S.problem c0 e0 o with
  | .error e => ([], .error e)
  | .ok P =>
    let head : List Line := if disp && S.method == .slsqp then [.rule, .heading, .rule] else []
    match (if disp then S.callbacks c0 e0 o (minimize P).1 head else (head, none)) with
    | (out, some e) => (out, .error e)
    | (out, none) => match (minimize P).2 with
      | .error e => (out, .error e)
      | .ok r =>
        let ce : List XR × List XR :=
          if o.optCoeffs && o.optExpons then
            (sliceTo r.x S.model.nbasis, sliceFrom r.x S.model.nbasis)
          else if o.optCoeffs then (r.x, e0)
          else (c0, r.x)
        let out' := out ++ if disp then (if S.method == .slsqp then [.rule] else []) ++
          [.success r.success, .time, .message r.message, .coeffs ce.1, .exps ce.2] else []
        match S.goodness ce.1 ce.2 with
        | .error e => (out', .error e)
        | .ok p => (out', .ok ⟨ce.1, ce.2, r.fun_, r.success, r.message, r.jac, p⟩)

end
end BFit
