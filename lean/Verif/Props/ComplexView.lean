import Mathlib.Tactic.Ring
import Verif.Model.Num
/-!
# C45: the complex view of a scratch slice
-/

set_option linter.all false

namespace RustDct

variable {T : Type}

theorem intoComplex_length : ∀ l : List T, (intoComplex l).length = l.length / 2
  | [] => by simp [intoComplex, flattenComplex]
  | [_] => by simp [intoComplex]
  | a :: b :: r => by simp [intoComplex, intoComplex_length r]; omega

/-- The view of a slice of `k` elements has `k / 2` complex numbers, and number `i` is the pair of elements `2i`, `2i + 1`. -/
theorem C45_read (l : List T) :
    (intoComplex l).length = l.length / 2 ∧
    ∀ i a b, l[2 * i]? = some a → l[2 * i + 1]? = some b → (intoComplex l)[i]? = some ⟨a, b⟩ := by
  refine ⟨intoComplex_length l, ?_⟩
  induction l using intoComplex.induct with
  | case1 x y r ih =>
    intro i a b ha hb
    cases i with
    | zero =>
      simp at ha hb
      simp [intoComplex, ha, hb]
    | succ i =>
      rw [show 2 * (i + 1) = 2 * i + 1 + 1 by ring, List.getElem?_cons_succ, List.getElem?_cons_succ] at ha
      rw [show 2 * (i + 1) + 1 = 2 * i + 1 + 1 + 1 by ring, List.getElem?_cons_succ, List.getElem?_cons_succ] at hb
      rw [intoComplex, List.getElem?_cons_succ]
      exact ih i a b ha hb
  | case2 l h =>
    intro i a b ha hb
    match l with
    | [] => simp at ha
    | [x] => simp at hb
    | x :: y :: r => exact absurd rfl (h x y r)

theorem flatten_into : ∀ l : List T, flattenComplex (intoComplex l) ++ l.drop (2 * (l.length / 2)) = l
  | [] => by simp [intoComplex, flattenComplex]
  | [_] => by simp [intoComplex, flattenComplex]
  | a :: b :: r => by
    have := flatten_into r
    rw [intoComplex, flattenComplex, List.length_cons, List.length_cons, show 2 * ((r.length + 1 + 1) / 2) = 2 * (r.length / 2) + 1 + 1 by omega]
    simpa using this

theorem flatten_set : ∀ (cs : List (Cx T)) (i : ℕ) (c : Cx T),
    flattenComplex (cs.set i c) = ((flattenComplex cs).set (2 * i) c.re).set (2 * i + 1) c.im
  | [], _, _ => by simp [flattenComplex]
  | d :: r, 0, c => by simp [flattenComplex]
  | d :: r, i + 1, c => by
    rw [List.set_cons_succ, flattenComplex, flattenComplex, flatten_set r i c, show 2 * (i + 1) = 2 * i + 1 + 1 by ring]
    simp

theorem flattenComplex_length : ∀ cs : List (Cx T), (flattenComplex cs).length = 2 * cs.length
  | [] => by simp [intoComplex, flattenComplex]
  | c :: r => by rw [flattenComplex]; simp [flattenComplex_length r]; ring

/-- Writing complex number `i` through the view writes elements `2i` and `2i + 1` of the slice and no others. -/
theorem C45_write (l : List T) (i : ℕ) (c : Cx T) (hi : i < l.length / 2) :
    fromComplex ((intoComplex l).set i c) l = (l.set (2 * i) c.re).set (2 * i + 1) c.im := by
  conv_rhs => rw [← flatten_into l]
  rw [fromComplex, flatten_set, List.length_set, intoComplex_length]
  have hl : (flattenComplex (intoComplex l)).length = 2 * (l.length / 2) := by rw [flattenComplex_length, intoComplex_length]
  rw [List.set_append, if_pos (by omega), List.set_append, if_pos (by rw [List.length_set]; omega)]

/-- Not writing anything through the view changes nothing. -/
theorem C45_none (l : List T) : fromComplex (intoComplex l) l = l := by
  rw [fromComplex, intoComplex_length, flatten_into]

/-- Overwriting the whole view: every element of the slice that a pair covers is the corresponding part of the complex number, an odd
last element stays, and the length stays. -/
theorem C45_overwrite (l : List T) (cs : List (Cx T)) (h : cs.length = l.length / 2) :
    (fromComplex cs l).length = l.length ∧
    (∀ i c, cs[i]? = some c → (fromComplex cs l)[2 * i]? = some c.re ∧ (fromComplex cs l)[2 * i + 1]? = some c.im) ∧
    ∀ j, 2 * (l.length / 2) ≤ j → (fromComplex cs l)[j]? = l[j]? := by
  have hl := flattenComplex_length cs
  refine ⟨?_, ?_, ?_⟩
  · rw [fromComplex, List.length_append, hl, List.length_drop]; omega
  · intro i c hc
    have hi : i < cs.length := (List.getElem?_eq_some_iff.1 hc).1
    have key : ∀ (cs : List (Cx T)) (i : ℕ), cs[i]? = some c → (flattenComplex cs)[2 * i]? = some c.re ∧ (flattenComplex cs)[2 * i + 1]? = some c.im := by
      intro cs
      induction cs with
      | nil => intro i h; simp at h
      | cons d r ih =>
        intro i h
        cases i with
        | zero => simp at h; subst h; simp [flattenComplex]
        | succ i =>
          rw [List.getElem?_cons_succ] at h
          have := ih i h
          rw [flattenComplex, show 2 * (i + 1) = 2 * i + 1 + 1 by ring]
          simpa using this
    rw [fromComplex, List.getElem?_append_left (by omega), List.getElem?_append_left (by omega)]
    exact key cs i hc
  · intro j hj
    rw [fromComplex, List.getElem?_append_right (by omega), List.getElem?_drop, hl]
    congr 1
    omega

/-- Non-vacuity, on a slice of odd length. -/
example : fromComplex ((intoComplex [1, 2, 3, 4, 5]).set 1 ⟨30, 40⟩) [1, 2, 3, 4, 5] = [1, 2, 30, 40, 5] := rfl

end RustDct
