import Verif.Num.Np

/-! Python integers and numbers, independently of the conversions used in the model. -/

namespace BFit

noncomputable section

/-- Objects that are instances of `int`, with their values; `True` and `False` are 1 and 0. -/
inductive PyObj.IsInt : PyObj → ℤ → Prop
  | int (n : ℤ) : IsInt (.int n) n
  | true : IsInt (.bool Bool.true) 1
  | false : IsInt (.bool Bool.false) 0

/-- Objects that are instances of `int` or `float`, with their values. -/
inductive PyObj.IsNumber : PyObj → XR → Prop
  | int {o : PyObj} {n : ℤ} (h : o.IsInt n) : IsNumber o (XR.fin n)
  | float (x : XR) : IsNumber (.float x) x

theorem isInt_iff {o : PyObj} {n : ℤ} : o.IsInt n ↔ o.asInt? = some n := by
  constructor
  · rintro (_ | _ | _) <;> rfl
  · intro h
    cases o with
    | int m => simp only [PyObj.asInt?, Option.some.injEq] at h; subst h; exact .int _
    | bool b =>
      cases b <;> simp only [PyObj.asInt?, Option.some.injEq] at h <;> subst h
      · exact .false
      · exact .true
    | _ => simp [PyObj.asInt?] at h

theorem isNumber_iff {o : PyObj} {x : XR} : o.IsNumber x ↔ o.asReal? = some x := by
  constructor
  · rintro (⟨⟨n⟩ | _ | _⟩ | _) <;> simp [PyObj.asReal?]
  · intro h
    cases o with
    | int m => simp only [PyObj.asReal?, Option.some.injEq] at h; subst h; exact .int (.int _)
    | bool b =>
      cases b <;> simp only [PyObj.asReal?, Option.some.injEq] at h <;> subst h
      · simpa using PyObj.IsNumber.int .false
      · simpa using PyObj.IsNumber.int .true
    | float y => simp only [PyObj.asReal?, Option.some.injEq] at h; subst h; exact .float _
    | _ => simp [PyObj.asReal?] at h

theorem not_isInt_iff {o : PyObj} : (∀ n, ¬ o.IsInt n) ↔ o.asInt? = none := by
  simp only [isInt_iff, Option.eq_none_iff_forall_ne_some, ne_eq]

theorem not_isNumber_iff {o : PyObj} : (∀ x, ¬ o.IsNumber x) ↔ o.asReal? = none := by
  simp only [isNumber_iff, Option.eq_none_iff_forall_ne_some, ne_eq]

end
end BFit
