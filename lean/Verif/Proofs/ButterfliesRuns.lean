import Verif.Proofs.ButterfliesReal
/-!
# The fixed-size kernels as transform objects

Over every element type they run without panicking whatever the input (`total_*`), and over ℝ they compute the
defining sums (`correct_*`).
-/

set_option linter.all false

namespace RustDct

theorem ex_choose {T : Type} [Zero T] {n : Nat} {body : List T → Except Err (List T)}
    (h : ∀ f, ∃ l, body (vec n f) = .ok l ∧ l.length = n) :
    ∃ C : (Nat → T) → Nat → T, ∀ f, body (vec n f) = .ok (vec n (C f)) := by
  have h' : ∀ f, ∃ g, body (vec n f) = .ok (vec n g) := fun f => by
    obtain ⟨l, h1, h2⟩ := h f
    obtain ⟨g, rfl⟩ := exists_vec h2
    exact ⟨g, h1⟩
  choose C hC using h'
  exact ⟨C, hC⟩

theorem list_ex {α : Type} : ∀ (n : Nat) (l : List α), l.length = n + 1 → ∃ a r, l = a :: r ∧ r.length = n
  | n, [], h => by simp at h
  | n, a :: r, h => ⟨a, r, rfl, by simpa using h⟩
theorem list_nil {α : Type} (l : List α) (h : l.length = 0) : l = [] := List.length_eq_zero_iff.1 h

section
variable {T : Type} {F : Type} [F64 F] [DctNum T F]

theorem Type2And3Butterfly2.ex_dct2 (self : Type2And3Butterfly2 T) (a0 a1 : T) :
    ∃ d0 d1, self.inplaceDct2 [a0, a1] = .ok [d0, d1] := 
  ⟨_, _, Type2And3Butterfly2.inplaceDct2_gen self _ _ ⟩
theorem Type2And3Butterfly2.ex_dct3 (self : Type2And3Butterfly2 T) (a0 a1 : T) :
    ∃ d0 d1, self.inplaceDct3 [a0, a1] = .ok [d0, d1] := 
  ⟨_, _, Type2And3Butterfly2.inplaceDct3_gen self _ _ ⟩
theorem Type2And3Butterfly2.ex_dst2 (self : Type2And3Butterfly2 T) (a0 a1 : T) :
    ∃ d0 d1, self.inplaceDst2 [a0, a1] = .ok [d0, d1] := 
  ⟨_, _, Type2And3Butterfly2.inplaceDst2_gen self _ _ ⟩
theorem Type2And3Butterfly2.ex_dst3 (self : Type2And3Butterfly2 T) (a0 a1 : T) :
    ∃ d0 d1, self.inplaceDst3 [a0, a1] = .ok [d0, d1] := 
  ⟨_, _, Type2And3Butterfly2.inplaceDst3_gen self _ _ ⟩
theorem Type2And3Butterfly3.ex_dct2 (self : Type2And3Butterfly3 T) (a0 a1 a2 : T) :
    ∃ d0 d1 d2, self.inplaceDct2 [a0, a1, a2] = .ok [d0, d1, d2] := 
  ⟨_, _, _, Type2And3Butterfly3.inplaceDct2_gen self _ _ _ ⟩
theorem Type2And3Butterfly3.ex_dct3 (self : Type2And3Butterfly3 T) (a0 a1 a2 : T) :
    ∃ d0 d1 d2, self.inplaceDct3 [a0, a1, a2] = .ok [d0, d1, d2] := 
  ⟨_, _, _, Type2And3Butterfly3.inplaceDct3_gen self _ _ _ ⟩
theorem Type2And3Butterfly3.ex_dst2 (self : Type2And3Butterfly3 T) (a0 a1 a2 : T) :
    ∃ d0 d1 d2, self.inplaceDst2 [a0, a1, a2] = .ok [d0, d1, d2] := 
  ⟨_, _, _, Type2And3Butterfly3.inplaceDst2_gen self _ _ _ ⟩
theorem Type2And3Butterfly3.ex_dst3 (self : Type2And3Butterfly3 T) (a0 a1 a2 : T) :
    ∃ d0 d1 d2, self.inplaceDst3 [a0, a1, a2] = .ok [d0, d1, d2] := 
  ⟨_, _, _, Type2And3Butterfly3.inplaceDst3_gen self _ _ _ ⟩
theorem Type2And3Butterfly4.ex_dct2 (self : Type2And3Butterfly4 T) (a0 a1 a2 a3 : T) :
    ∃ d0 d1 d2 d3, self.inplaceDct2 [a0, a1, a2, a3] = .ok [d0, d1, d2, d3] := 
  ⟨_, _, _, _, Type2And3Butterfly4.inplaceDct2_gen self _ _ _ _ ⟩
theorem Type2And3Butterfly4.ex_dct3 (self : Type2And3Butterfly4 T) (a0 a1 a2 a3 : T) :
    ∃ d0 d1 d2 d3, self.inplaceDct3 [a0, a1, a2, a3] = .ok [d0, d1, d2, d3] := 
  ⟨_, _, _, _, Type2And3Butterfly4.inplaceDct3_gen self _ _ _ _ ⟩
theorem Type2And3Butterfly4.ex_dst2 (self : Type2And3Butterfly4 T) (a0 a1 a2 a3 : T) :
    ∃ d0 d1 d2 d3, self.inplaceDst2 [a0, a1, a2, a3] = .ok [d0, d1, d2, d3] := 
  ⟨_, _, _, _, Type2And3Butterfly4.inplaceDst2_gen self _ _ _ _ ⟩
theorem Type2And3Butterfly4.ex_dst3 (self : Type2And3Butterfly4 T) (a0 a1 a2 a3 : T) :
    ∃ d0 d1 d2 d3, self.inplaceDst3 [a0, a1, a2, a3] = .ok [d0, d1, d2, d3] := 
  ⟨_, _, _, _, Type2And3Butterfly4.inplaceDst3_gen self _ _ _ _ ⟩
theorem Type2And3Butterfly8.ex_dct2 (self : Type2And3Butterfly8 T) {t0 t1 : Cx T} (ht : self.twiddles = [t0, t1]) 
    (a0 a1 a2 a3 a4 a5 a6 a7 : T) : ∃ d0 d1 d2 d3 d4 d5 d6 d7, self.inplaceDct2 [a0, a1, a2, a3, a4, a5, a6, a7] = .ok [d0, d1, d2, d3, d4, d5, d6, d7] := by
  choose D0 D1 D2 D3 hD using self.butterfly4.ex_dct2 
  choose E0 E1 hE using self.butterfly2.ex_dct2
  choose O0 O1 hO using self.butterfly2.ex_dst2
  exact ⟨_, _, _, _, _, _, _, _, Type2And3Butterfly8.inplaceDct2_gen self ht (hD _ _ _ _ ) (hE _ _ ) (hO _ _ )⟩
theorem Type2And3Butterfly8.ex_dct3 (self : Type2And3Butterfly8 T) {t0 t1 : Cx T} (ht : self.twiddles = [t0, t1]) 
    (a0 a1 a2 a3 a4 a5 a6 a7 : T) : ∃ d0 d1 d2 d3 d4 d5 d6 d7, self.inplaceDct3 [a0, a1, a2, a3, a4, a5, a6, a7] = .ok [d0, d1, d2, d3, d4, d5, d6, d7] := by
  choose D0 D1 D2 D3 hD using self.butterfly4.ex_dct3 
  choose E0 E1 hE using self.butterfly2.ex_dct3
  choose O0 O1 hO using self.butterfly2.ex_dst3
  exact ⟨_, _, _, _, _, _, _, _, Type2And3Butterfly8.inplaceDct3_gen self ht (hD _ _ _ _ ) (hE _ _ ) (hO _ _ )⟩
theorem Type2And3Butterfly8.ex_dst2 (self : Type2And3Butterfly8 T) {t0 t1 : Cx T} (ht : self.twiddles = [t0, t1]) 
    (a0 a1 a2 a3 a4 a5 a6 a7 : T) : ∃ d0 d1 d2 d3 d4 d5 d6 d7, self.inplaceDst2 [a0, a1, a2, a3, a4, a5, a6, a7] = .ok [d0, d1, d2, d3, d4, d5, d6, d7] := by
  choose D0 D1 D2 D3 hD using self.butterfly4.ex_dct2 
  choose E0 E1 hE using self.butterfly2.ex_dct2
  choose O0 O1 hO using self.butterfly2.ex_dst2
  exact ⟨_, _, _, _, _, _, _, _, Type2And3Butterfly8.inplaceDst2_gen self ht (hD _ _ _ _ ) (hE _ _ ) (hO _ _ )⟩
theorem Type2And3Butterfly8.ex_dst3 (self : Type2And3Butterfly8 T) {t0 t1 : Cx T} (ht : self.twiddles = [t0, t1]) 
    (a0 a1 a2 a3 a4 a5 a6 a7 : T) : ∃ d0 d1 d2 d3 d4 d5 d6 d7, self.inplaceDst3 [a0, a1, a2, a3, a4, a5, a6, a7] = .ok [d0, d1, d2, d3, d4, d5, d6, d7] := by
  choose D0 D1 D2 D3 hD using self.butterfly4.ex_dct3 
  choose E0 E1 hE using self.butterfly2.ex_dct3
  choose O0 O1 hO using self.butterfly2.ex_dst3
  exact ⟨_, _, _, _, _, _, _, _, Type2And3Butterfly8.inplaceDst3_gen self ht (hD _ _ _ _ ) (hE _ _ ) (hO _ _ )⟩
theorem Type2And3Butterfly16.ex_dct2 (self : Type2And3Butterfly16 T) {t0 t1 t2 t3 : Cx T} (ht : self.twiddles = [t0, t1, t2, t3]) {s0 s1 : Cx T} (hs : self.butterfly8.twiddles = [s0, s1]) 
    (a0 a1 a2 a3 a4 a5 a6 a7 a8 a9 a10 a11 a12 a13 a14 a15 : T) : ∃ d0 d1 d2 d3 d4 d5 d6 d7 d8 d9 d10 d11 d12 d13 d14 d15, self.inplaceDct2 [a0, a1, a2, a3, a4, a5, a6, a7, a8, a9, a10, a11, a12, a13, a14, a15] = .ok [d0, d1, d2, d3, d4, d5, d6, d7, d8, d9, d10, d11, d12, d13, d14, d15] := by
  choose D0 D1 D2 D3 D4 D5 D6 D7 hD using self.butterfly8.ex_dct2 hs
  choose E0 E1 E2 E3 hE using self.butterfly4.ex_dct2
  choose O0 O1 O2 O3 hO using self.butterfly4.ex_dst2
  exact ⟨_, _, _, _, _, _, _, _, _, _, _, _, _, _, _, _, Type2And3Butterfly16.inplaceDct2_gen self ht (hD _ _ _ _ _ _ _ _ ) (hE _ _ _ _ ) (hO _ _ _ _ )⟩
theorem Type2And3Butterfly16.ex_dct3 (self : Type2And3Butterfly16 T) {t0 t1 t2 t3 : Cx T} (ht : self.twiddles = [t0, t1, t2, t3]) {s0 s1 : Cx T} (hs : self.butterfly8.twiddles = [s0, s1]) 
    (a0 a1 a2 a3 a4 a5 a6 a7 a8 a9 a10 a11 a12 a13 a14 a15 : T) : ∃ d0 d1 d2 d3 d4 d5 d6 d7 d8 d9 d10 d11 d12 d13 d14 d15, self.inplaceDct3 [a0, a1, a2, a3, a4, a5, a6, a7, a8, a9, a10, a11, a12, a13, a14, a15] = .ok [d0, d1, d2, d3, d4, d5, d6, d7, d8, d9, d10, d11, d12, d13, d14, d15] := by
  choose D0 D1 D2 D3 D4 D5 D6 D7 hD using self.butterfly8.ex_dct3 hs
  choose E0 E1 E2 E3 hE using self.butterfly4.ex_dct3
  choose O0 O1 O2 O3 hO using self.butterfly4.ex_dst3
  exact ⟨_, _, _, _, _, _, _, _, _, _, _, _, _, _, _, _, Type2And3Butterfly16.inplaceDct3_gen self ht (hD _ _ _ _ _ _ _ _ ) (hE _ _ _ _ ) (hO _ _ _ _ )⟩
theorem Type2And3Butterfly16.ex_dst2 (self : Type2And3Butterfly16 T) {t0 t1 t2 t3 : Cx T} (ht : self.twiddles = [t0, t1, t2, t3]) {s0 s1 : Cx T} (hs : self.butterfly8.twiddles = [s0, s1]) 
    (a0 a1 a2 a3 a4 a5 a6 a7 a8 a9 a10 a11 a12 a13 a14 a15 : T) : ∃ d0 d1 d2 d3 d4 d5 d6 d7 d8 d9 d10 d11 d12 d13 d14 d15, self.inplaceDst2 [a0, a1, a2, a3, a4, a5, a6, a7, a8, a9, a10, a11, a12, a13, a14, a15] = .ok [d0, d1, d2, d3, d4, d5, d6, d7, d8, d9, d10, d11, d12, d13, d14, d15] := by
  choose D0 D1 D2 D3 D4 D5 D6 D7 hD using self.butterfly8.ex_dct2 hs
  choose E0 E1 E2 E3 hE using self.butterfly4.ex_dct2
  choose O0 O1 O2 O3 hO using self.butterfly4.ex_dst2
  exact ⟨_, _, _, _, _, _, _, _, _, _, _, _, _, _, _, _, Type2And3Butterfly16.inplaceDst2_gen self ht (hD _ _ _ _ _ _ _ _ ) (hE _ _ _ _ ) (hO _ _ _ _ )⟩
theorem Type2And3Butterfly16.ex_dst3 (self : Type2And3Butterfly16 T) {t0 t1 t2 t3 : Cx T} (ht : self.twiddles = [t0, t1, t2, t3]) {s0 s1 : Cx T} (hs : self.butterfly8.twiddles = [s0, s1]) 
    (a0 a1 a2 a3 a4 a5 a6 a7 a8 a9 a10 a11 a12 a13 a14 a15 : T) : ∃ d0 d1 d2 d3 d4 d5 d6 d7 d8 d9 d10 d11 d12 d13 d14 d15, self.inplaceDst3 [a0, a1, a2, a3, a4, a5, a6, a7, a8, a9, a10, a11, a12, a13, a14, a15] = .ok [d0, d1, d2, d3, d4, d5, d6, d7, d8, d9, d10, d11, d12, d13, d14, d15] := by
  choose D0 D1 D2 D3 D4 D5 D6 D7 hD using self.butterfly8.ex_dct3 hs
  choose E0 E1 E2 E3 hE using self.butterfly4.ex_dct3
  choose O0 O1 O2 O3 hO using self.butterfly4.ex_dst3
  exact ⟨_, _, _, _, _, _, _, _, _, _, _, _, _, _, _, _, Type2And3Butterfly16.inplaceDst3_gen self ht (hD _ _ _ _ _ _ _ _ ) (hE _ _ _ _ ) (hO _ _ _ _ )⟩
theorem Type2And3Butterfly2.inplace_ex_dct2 (l : List T) (h : l.length = 2) :
    ∃ r, (Type2And3Butterfly2.new : Type2And3Butterfly2 T).inplaceDct2 l = .ok r ∧ r.length = 2 := by
  obtain ⟨f, rfl⟩ := exists_vec h
  rw [vec_two]
  obtain ⟨d0, d1, h⟩ := Type2And3Butterfly2.ex_dct2 (Type2And3Butterfly2.new : Type2And3Butterfly2 T)  (f 0) (f 1)
  exact ⟨_, h, rfl⟩
theorem Type2And3Butterfly2.inplace_ex_dct3 (l : List T) (h : l.length = 2) :
    ∃ r, (Type2And3Butterfly2.new : Type2And3Butterfly2 T).inplaceDct3 l = .ok r ∧ r.length = 2 := by
  obtain ⟨f, rfl⟩ := exists_vec h
  rw [vec_two]
  obtain ⟨d0, d1, h⟩ := Type2And3Butterfly2.ex_dct3 (Type2And3Butterfly2.new : Type2And3Butterfly2 T)  (f 0) (f 1)
  exact ⟨_, h, rfl⟩
theorem Type2And3Butterfly2.inplace_ex_dst2 (l : List T) (h : l.length = 2) :
    ∃ r, (Type2And3Butterfly2.new : Type2And3Butterfly2 T).inplaceDst2 l = .ok r ∧ r.length = 2 := by
  obtain ⟨f, rfl⟩ := exists_vec h
  rw [vec_two]
  obtain ⟨d0, d1, h⟩ := Type2And3Butterfly2.ex_dst2 (Type2And3Butterfly2.new : Type2And3Butterfly2 T)  (f 0) (f 1)
  exact ⟨_, h, rfl⟩
theorem Type2And3Butterfly2.inplace_ex_dst3 (l : List T) (h : l.length = 2) :
    ∃ r, (Type2And3Butterfly2.new : Type2And3Butterfly2 T).inplaceDst3 l = .ok r ∧ r.length = 2 := by
  obtain ⟨f, rfl⟩ := exists_vec h
  rw [vec_two]
  obtain ⟨d0, d1, h⟩ := Type2And3Butterfly2.ex_dst3 (Type2And3Butterfly2.new : Type2And3Butterfly2 T)  (f 0) (f 1)
  exact ⟨_, h, rfl⟩
theorem Type2And3Butterfly3.inplace_ex_dct2 (l : List T) (h : l.length = 3) :
    ∃ r, (Type2And3Butterfly3.new : Type2And3Butterfly3 T).inplaceDct2 l = .ok r ∧ r.length = 3 := by
  obtain ⟨f, rfl⟩ := exists_vec h
  rw [vec_three]
  obtain ⟨d0, d1, d2, h⟩ := Type2And3Butterfly3.ex_dct2 (Type2And3Butterfly3.new : Type2And3Butterfly3 T)  (f 0) (f 1) (f 2)
  exact ⟨_, h, rfl⟩
theorem Type2And3Butterfly3.inplace_ex_dct3 (l : List T) (h : l.length = 3) :
    ∃ r, (Type2And3Butterfly3.new : Type2And3Butterfly3 T).inplaceDct3 l = .ok r ∧ r.length = 3 := by
  obtain ⟨f, rfl⟩ := exists_vec h
  rw [vec_three]
  obtain ⟨d0, d1, d2, h⟩ := Type2And3Butterfly3.ex_dct3 (Type2And3Butterfly3.new : Type2And3Butterfly3 T)  (f 0) (f 1) (f 2)
  exact ⟨_, h, rfl⟩
theorem Type2And3Butterfly3.inplace_ex_dst2 (l : List T) (h : l.length = 3) :
    ∃ r, (Type2And3Butterfly3.new : Type2And3Butterfly3 T).inplaceDst2 l = .ok r ∧ r.length = 3 := by
  obtain ⟨f, rfl⟩ := exists_vec h
  rw [vec_three]
  obtain ⟨d0, d1, d2, h⟩ := Type2And3Butterfly3.ex_dst2 (Type2And3Butterfly3.new : Type2And3Butterfly3 T)  (f 0) (f 1) (f 2)
  exact ⟨_, h, rfl⟩
theorem Type2And3Butterfly3.inplace_ex_dst3 (l : List T) (h : l.length = 3) :
    ∃ r, (Type2And3Butterfly3.new : Type2And3Butterfly3 T).inplaceDst3 l = .ok r ∧ r.length = 3 := by
  obtain ⟨f, rfl⟩ := exists_vec h
  rw [vec_three]
  obtain ⟨d0, d1, d2, h⟩ := Type2And3Butterfly3.ex_dst3 (Type2And3Butterfly3.new : Type2And3Butterfly3 T)  (f 0) (f 1) (f 2)
  exact ⟨_, h, rfl⟩
theorem Type2And3Butterfly4.inplace_ex_dct2 (l : List T) (h : l.length = 4) :
    ∃ r, (Type2And3Butterfly4.new : Type2And3Butterfly4 T).inplaceDct2 l = .ok r ∧ r.length = 4 := by
  obtain ⟨f, rfl⟩ := exists_vec h
  rw [vec_four]
  obtain ⟨d0, d1, d2, d3, h⟩ := Type2And3Butterfly4.ex_dct2 (Type2And3Butterfly4.new : Type2And3Butterfly4 T)  (f 0) (f 1) (f 2) (f 3)
  exact ⟨_, h, rfl⟩
theorem Type2And3Butterfly4.inplace_ex_dct3 (l : List T) (h : l.length = 4) :
    ∃ r, (Type2And3Butterfly4.new : Type2And3Butterfly4 T).inplaceDct3 l = .ok r ∧ r.length = 4 := by
  obtain ⟨f, rfl⟩ := exists_vec h
  rw [vec_four]
  obtain ⟨d0, d1, d2, d3, h⟩ := Type2And3Butterfly4.ex_dct3 (Type2And3Butterfly4.new : Type2And3Butterfly4 T)  (f 0) (f 1) (f 2) (f 3)
  exact ⟨_, h, rfl⟩
theorem Type2And3Butterfly4.inplace_ex_dst2 (l : List T) (h : l.length = 4) :
    ∃ r, (Type2And3Butterfly4.new : Type2And3Butterfly4 T).inplaceDst2 l = .ok r ∧ r.length = 4 := by
  obtain ⟨f, rfl⟩ := exists_vec h
  rw [vec_four]
  obtain ⟨d0, d1, d2, d3, h⟩ := Type2And3Butterfly4.ex_dst2 (Type2And3Butterfly4.new : Type2And3Butterfly4 T)  (f 0) (f 1) (f 2) (f 3)
  exact ⟨_, h, rfl⟩
theorem Type2And3Butterfly4.inplace_ex_dst3 (l : List T) (h : l.length = 4) :
    ∃ r, (Type2And3Butterfly4.new : Type2And3Butterfly4 T).inplaceDst3 l = .ok r ∧ r.length = 4 := by
  obtain ⟨f, rfl⟩ := exists_vec h
  rw [vec_four]
  obtain ⟨d0, d1, d2, d3, h⟩ := Type2And3Butterfly4.ex_dst3 (Type2And3Butterfly4.new : Type2And3Butterfly4 T)  (f 0) (f 1) (f 2) (f 3)
  exact ⟨_, h, rfl⟩
theorem Type2And3Butterfly8.inplace_ex_dct2 (l : List T) (h : l.length = 8) :
    ∃ r, (Type2And3Butterfly8.new : Type2And3Butterfly8 T).inplaceDct2 l = .ok r ∧ r.length = 8 := by
  obtain ⟨f, rfl⟩ := exists_vec h
  rw [vec_eight]
  obtain ⟨d0, d1, d2, d3, d4, d5, d6, d7, h⟩ := Type2And3Butterfly8.ex_dct2 (Type2And3Butterfly8.new : Type2And3Butterfly8 T) rfl (f 0) (f 1) (f 2) (f 3) (f 4) (f 5) (f 6) (f 7)
  exact ⟨_, h, rfl⟩
theorem Type2And3Butterfly8.inplace_ex_dct3 (l : List T) (h : l.length = 8) :
    ∃ r, (Type2And3Butterfly8.new : Type2And3Butterfly8 T).inplaceDct3 l = .ok r ∧ r.length = 8 := by
  obtain ⟨f, rfl⟩ := exists_vec h
  rw [vec_eight]
  obtain ⟨d0, d1, d2, d3, d4, d5, d6, d7, h⟩ := Type2And3Butterfly8.ex_dct3 (Type2And3Butterfly8.new : Type2And3Butterfly8 T) rfl (f 0) (f 1) (f 2) (f 3) (f 4) (f 5) (f 6) (f 7)
  exact ⟨_, h, rfl⟩
theorem Type2And3Butterfly8.inplace_ex_dst2 (l : List T) (h : l.length = 8) :
    ∃ r, (Type2And3Butterfly8.new : Type2And3Butterfly8 T).inplaceDst2 l = .ok r ∧ r.length = 8 := by
  obtain ⟨f, rfl⟩ := exists_vec h
  rw [vec_eight]
  obtain ⟨d0, d1, d2, d3, d4, d5, d6, d7, h⟩ := Type2And3Butterfly8.ex_dst2 (Type2And3Butterfly8.new : Type2And3Butterfly8 T) rfl (f 0) (f 1) (f 2) (f 3) (f 4) (f 5) (f 6) (f 7)
  exact ⟨_, h, rfl⟩
theorem Type2And3Butterfly8.inplace_ex_dst3 (l : List T) (h : l.length = 8) :
    ∃ r, (Type2And3Butterfly8.new : Type2And3Butterfly8 T).inplaceDst3 l = .ok r ∧ r.length = 8 := by
  obtain ⟨f, rfl⟩ := exists_vec h
  rw [vec_eight]
  obtain ⟨d0, d1, d2, d3, d4, d5, d6, d7, h⟩ := Type2And3Butterfly8.ex_dst3 (Type2And3Butterfly8.new : Type2And3Butterfly8 T) rfl (f 0) (f 1) (f 2) (f 3) (f 4) (f 5) (f 6) (f 7)
  exact ⟨_, h, rfl⟩
theorem Type2And3Butterfly16.inplace_ex_dct2 (l : List T) (h : l.length = 16) :
    ∃ r, (Type2And3Butterfly16.new : Type2And3Butterfly16 T).inplaceDct2 l = .ok r ∧ r.length = 16 := by
  obtain ⟨f, rfl⟩ := exists_vec h
  rw [vec_sixteen]
  obtain ⟨d0, d1, d2, d3, d4, d5, d6, d7, d8, d9, d10, d11, d12, d13, d14, d15, h⟩ := Type2And3Butterfly16.ex_dct2 (Type2And3Butterfly16.new : Type2And3Butterfly16 T) rfl rfl (f 0) (f 1) (f 2) (f 3) (f 4) (f 5) (f 6) (f 7) (f 8) (f 9) (f 10) (f 11) (f 12) (f 13) (f 14) (f 15)
  exact ⟨_, h, rfl⟩
theorem Type2And3Butterfly16.inplace_ex_dct3 (l : List T) (h : l.length = 16) :
    ∃ r, (Type2And3Butterfly16.new : Type2And3Butterfly16 T).inplaceDct3 l = .ok r ∧ r.length = 16 := by
  obtain ⟨f, rfl⟩ := exists_vec h
  rw [vec_sixteen]
  obtain ⟨d0, d1, d2, d3, d4, d5, d6, d7, d8, d9, d10, d11, d12, d13, d14, d15, h⟩ := Type2And3Butterfly16.ex_dct3 (Type2And3Butterfly16.new : Type2And3Butterfly16 T) rfl rfl (f 0) (f 1) (f 2) (f 3) (f 4) (f 5) (f 6) (f 7) (f 8) (f 9) (f 10) (f 11) (f 12) (f 13) (f 14) (f 15)
  exact ⟨_, h, rfl⟩
theorem Type2And3Butterfly16.inplace_ex_dst2 (l : List T) (h : l.length = 16) :
    ∃ r, (Type2And3Butterfly16.new : Type2And3Butterfly16 T).inplaceDst2 l = .ok r ∧ r.length = 16 := by
  obtain ⟨f, rfl⟩ := exists_vec h
  rw [vec_sixteen]
  obtain ⟨d0, d1, d2, d3, d4, d5, d6, d7, d8, d9, d10, d11, d12, d13, d14, d15, h⟩ := Type2And3Butterfly16.ex_dst2 (Type2And3Butterfly16.new : Type2And3Butterfly16 T) rfl rfl (f 0) (f 1) (f 2) (f 3) (f 4) (f 5) (f 6) (f 7) (f 8) (f 9) (f 10) (f 11) (f 12) (f 13) (f 14) (f 15)
  exact ⟨_, h, rfl⟩
theorem Type2And3Butterfly16.inplace_ex_dst3 (l : List T) (h : l.length = 16) :
    ∃ r, (Type2And3Butterfly16.new : Type2And3Butterfly16 T).inplaceDst3 l = .ok r ∧ r.length = 16 := by
  obtain ⟨f, rfl⟩ := exists_vec h
  rw [vec_sixteen]
  obtain ⟨d0, d1, d2, d3, d4, d5, d6, d7, d8, d9, d10, d11, d12, d13, d14, d15, h⟩ := Type2And3Butterfly16.ex_dst3 (Type2And3Butterfly16.new : Type2And3Butterfly16 T) rfl rfl (f 0) (f 1) (f 2) (f 3) (f 4) (f 5) (f 6) (f 7) (f 8) (f 9) (f 10) (f 11) (f 12) (f 13) (f 14) (f 15)
  exact ⟨_, h, rfl⟩

theorem Type2And3Butterfly2.dct2_body (self : Type2And3Butterfly2 T) : self.dct2 = fun m => validateBuffer m 2 self.inplaceDct2 := by
  funext m
  unfold Type2And3Butterfly2.dct2 validateBuffer
  split_ifs with h1
  · rfl
  · obtain ⟨f, hf⟩ := exists_vec (not_not.1 h1)
    rw [hf, vec_two, Type2And3Butterfly2.inplaceDct2_gen]
    beta_reduce
    simp only [rd_zero, rd_succ, wr_zero, wr_succ, okBind]

theorem Type2And3Butterfly2.total_dct2 : ∃ C, RunsV (Type2And3Butterfly2.new : Type2And3Butterfly2 T).dct2 2 0 C := by
  rw [Type2And3Butterfly2.dct2_body]
  obtain ⟨C, hC⟩ := ex_choose (fun f : Nat → T => Type2And3Butterfly2.inplace_ex_dct2 _ (length_vec 2 f))
  exact ⟨C, runsV_of_buffer hC⟩

theorem Type2And3Butterfly2.dct3_body (self : Type2And3Butterfly2 T) : self.dct3 = fun m => validateBuffer m 2 self.inplaceDct3 := by
  funext m
  unfold Type2And3Butterfly2.dct3 validateBuffer
  split_ifs with h1
  · rfl
  · obtain ⟨f, hf⟩ := exists_vec (not_not.1 h1)
    rw [hf, vec_two, Type2And3Butterfly2.inplaceDct3_gen]
    beta_reduce
    simp only [rd_zero, rd_succ, wr_zero, wr_succ, okBind]

theorem Type2And3Butterfly2.total_dct3 : ∃ C, RunsV (Type2And3Butterfly2.new : Type2And3Butterfly2 T).dct3 2 0 C := by
  rw [Type2And3Butterfly2.dct3_body]
  obtain ⟨C, hC⟩ := ex_choose (fun f : Nat → T => Type2And3Butterfly2.inplace_ex_dct3 _ (length_vec 2 f))
  exact ⟨C, runsV_of_buffer hC⟩

theorem Type2And3Butterfly2.dst2_body (self : Type2And3Butterfly2 T) : self.dst2 = fun m => validateBuffer m 2 self.inplaceDst2 := by
  funext m
  unfold Type2And3Butterfly2.dst2 validateBuffer
  split_ifs with h1
  · rfl
  · obtain ⟨f, hf⟩ := exists_vec (not_not.1 h1)
    rw [hf, vec_two, Type2And3Butterfly2.inplaceDst2_gen]
    beta_reduce
    simp only [rd_zero, rd_succ, wr_zero, wr_succ, okBind]

theorem Type2And3Butterfly2.total_dst2 : ∃ C, RunsV (Type2And3Butterfly2.new : Type2And3Butterfly2 T).dst2 2 0 C := by
  rw [Type2And3Butterfly2.dst2_body]
  obtain ⟨C, hC⟩ := ex_choose (fun f : Nat → T => Type2And3Butterfly2.inplace_ex_dst2 _ (length_vec 2 f))
  exact ⟨C, runsV_of_buffer hC⟩

theorem Type2And3Butterfly2.dst3_body (self : Type2And3Butterfly2 T) : self.dst3 = fun m => validateBuffer m 2 self.inplaceDst3 := by
  funext m
  unfold Type2And3Butterfly2.dst3 validateBuffer
  split_ifs with h1
  · rfl
  · obtain ⟨f, hf⟩ := exists_vec (not_not.1 h1)
    rw [hf, vec_two, Type2And3Butterfly2.inplaceDst3_gen]
    beta_reduce
    simp only [rd_zero, rd_succ, wr_zero, wr_succ, okBind]

theorem Type2And3Butterfly2.total_dst3 : ∃ C, RunsV (Type2And3Butterfly2.new : Type2And3Butterfly2 T).dst3 2 0 C := by
  rw [Type2And3Butterfly2.dst3_body]
  obtain ⟨C, hC⟩ := ex_choose (fun f : Nat → T => Type2And3Butterfly2.inplace_ex_dst3 _ (length_vec 2 f))
  exact ⟨C, runsV_of_buffer hC⟩

theorem Type2And3Butterfly3.total_dct2 : ∃ C, RunsV (Type2And3Butterfly3.new : Type2And3Butterfly3 T).dct2 3 0 C := by
  obtain ⟨C, hC⟩ := ex_choose (fun f : Nat → T => Type2And3Butterfly3.inplace_ex_dct2 _ (length_vec 3 f))
  exact ⟨C, runsV_of_buffer hC⟩

theorem Type2And3Butterfly3.total_dct3 : ∃ C, RunsV (Type2And3Butterfly3.new : Type2And3Butterfly3 T).dct3 3 0 C := by
  obtain ⟨C, hC⟩ := ex_choose (fun f : Nat → T => Type2And3Butterfly3.inplace_ex_dct3 _ (length_vec 3 f))
  exact ⟨C, runsV_of_buffer hC⟩

theorem Type2And3Butterfly3.total_dst2 : ∃ C, RunsV (Type2And3Butterfly3.new : Type2And3Butterfly3 T).dst2 3 0 C := by
  obtain ⟨C, hC⟩ := ex_choose (fun f : Nat → T => Type2And3Butterfly3.inplace_ex_dst2 _ (length_vec 3 f))
  exact ⟨C, runsV_of_buffer hC⟩

theorem Type2And3Butterfly3.total_dst3 : ∃ C, RunsV (Type2And3Butterfly3.new : Type2And3Butterfly3 T).dst3 3 0 C := by
  obtain ⟨C, hC⟩ := ex_choose (fun f : Nat → T => Type2And3Butterfly3.inplace_ex_dst3 _ (length_vec 3 f))
  exact ⟨C, runsV_of_buffer hC⟩

theorem Type2And3Butterfly4.total_dct2 : ∃ C, RunsV (Type2And3Butterfly4.new : Type2And3Butterfly4 T).dct2 4 0 C := by
  obtain ⟨C, hC⟩ := ex_choose (fun f : Nat → T => Type2And3Butterfly4.inplace_ex_dct2 _ (length_vec 4 f))
  exact ⟨C, runsV_of_buffer hC⟩

theorem Type2And3Butterfly4.total_dct3 : ∃ C, RunsV (Type2And3Butterfly4.new : Type2And3Butterfly4 T).dct3 4 0 C := by
  obtain ⟨C, hC⟩ := ex_choose (fun f : Nat → T => Type2And3Butterfly4.inplace_ex_dct3 _ (length_vec 4 f))
  exact ⟨C, runsV_of_buffer hC⟩

theorem Type2And3Butterfly4.total_dst2 : ∃ C, RunsV (Type2And3Butterfly4.new : Type2And3Butterfly4 T).dst2 4 0 C := by
  obtain ⟨C, hC⟩ := ex_choose (fun f : Nat → T => Type2And3Butterfly4.inplace_ex_dst2 _ (length_vec 4 f))
  exact ⟨C, runsV_of_buffer hC⟩

theorem Type2And3Butterfly4.total_dst3 : ∃ C, RunsV (Type2And3Butterfly4.new : Type2And3Butterfly4 T).dst3 4 0 C := by
  obtain ⟨C, hC⟩ := ex_choose (fun f : Nat → T => Type2And3Butterfly4.inplace_ex_dst3 _ (length_vec 4 f))
  exact ⟨C, runsV_of_buffer hC⟩

theorem Type2And3Butterfly8.total_dct2 : ∃ C, RunsV (Type2And3Butterfly8.new : Type2And3Butterfly8 T).dct2 8 0 C := by
  obtain ⟨C, hC⟩ := ex_choose (fun f : Nat → T => Type2And3Butterfly8.inplace_ex_dct2 _ (length_vec 8 f))
  exact ⟨C, runsV_of_buffer hC⟩

theorem Type2And3Butterfly8.total_dct3 : ∃ C, RunsV (Type2And3Butterfly8.new : Type2And3Butterfly8 T).dct3 8 0 C := by
  obtain ⟨C, hC⟩ := ex_choose (fun f : Nat → T => Type2And3Butterfly8.inplace_ex_dct3 _ (length_vec 8 f))
  exact ⟨C, runsV_of_buffer hC⟩

theorem Type2And3Butterfly8.total_dst2 : ∃ C, RunsV (Type2And3Butterfly8.new : Type2And3Butterfly8 T).dst2 8 0 C := by
  obtain ⟨C, hC⟩ := ex_choose (fun f : Nat → T => Type2And3Butterfly8.inplace_ex_dst2 _ (length_vec 8 f))
  exact ⟨C, runsV_of_buffer hC⟩

theorem Type2And3Butterfly8.total_dst3 : ∃ C, RunsV (Type2And3Butterfly8.new : Type2And3Butterfly8 T).dst3 8 0 C := by
  obtain ⟨C, hC⟩ := ex_choose (fun f : Nat → T => Type2And3Butterfly8.inplace_ex_dst3 _ (length_vec 8 f))
  exact ⟨C, runsV_of_buffer hC⟩

theorem Type2And3Butterfly16.total_dct2 : ∃ C, RunsV (Type2And3Butterfly16.new : Type2And3Butterfly16 T).dct2 16 0 C := by
  obtain ⟨C, hC⟩ := ex_choose (fun f : Nat → T => Type2And3Butterfly16.inplace_ex_dct2 _ (length_vec 16 f))
  exact ⟨C, runsV_of_buffer hC⟩

theorem Type2And3Butterfly16.total_dct3 : ∃ C, RunsV (Type2And3Butterfly16.new : Type2And3Butterfly16 T).dct3 16 0 C := by
  obtain ⟨C, hC⟩ := ex_choose (fun f : Nat → T => Type2And3Butterfly16.inplace_ex_dct3 _ (length_vec 16 f))
  exact ⟨C, runsV_of_buffer hC⟩

theorem Type2And3Butterfly16.total_dst2 : ∃ C, RunsV (Type2And3Butterfly16.new : Type2And3Butterfly16 T).dst2 16 0 C := by
  obtain ⟨C, hC⟩ := ex_choose (fun f : Nat → T => Type2And3Butterfly16.inplace_ex_dst2 _ (length_vec 16 f))
  exact ⟨C, runsV_of_buffer hC⟩

theorem Type2And3Butterfly16.total_dst3 : ∃ C, RunsV (Type2And3Butterfly16.new : Type2And3Butterfly16 T).dst3 16 0 C := by
  obtain ⟨C, hC⟩ := ex_choose (fun f : Nat → T => Type2And3Butterfly16.inplace_ex_dst3 _ (length_vec 16 f))
  exact ⟨C, runsV_of_buffer hC⟩

end

theorem Type2And3Butterfly2.correct_dct2 : RunsV (Type2And3Butterfly2.new : Type2And3Butterfly2 ℝ).dct2 2 0 (Spec.dct2At 2) := by
  rw [Type2And3Butterfly2.dct2_body]
  exact runsV_of_buffer (Type2And3Butterfly2.real_dct2 _)
theorem Type2And3Butterfly2.correct_dct3 : RunsV (Type2And3Butterfly2.new : Type2And3Butterfly2 ℝ).dct3 2 0 (Spec.dct3At 2) := by
  rw [Type2And3Butterfly2.dct3_body]
  exact runsV_of_buffer (Type2And3Butterfly2.real_dct3 _)
theorem Type2And3Butterfly2.correct_dst2 : RunsV (Type2And3Butterfly2.new : Type2And3Butterfly2 ℝ).dst2 2 0 (Spec.dst2At 2) := by
  rw [Type2And3Butterfly2.dst2_body]
  exact runsV_of_buffer (Type2And3Butterfly2.real_dst2 _)
theorem Type2And3Butterfly2.correct_dst3 : RunsV (Type2And3Butterfly2.new : Type2And3Butterfly2 ℝ).dst3 2 0 (Spec.dst3At 2) := by
  rw [Type2And3Butterfly2.dst3_body]
  exact runsV_of_buffer (Type2And3Butterfly2.real_dst3 _)
theorem Type2And3Butterfly3.correct_dct2 : RunsV (Type2And3Butterfly3.new : Type2And3Butterfly3 ℝ).dct2 3 0 (Spec.dct2At 3) :=
  runsV_of_buffer Type2And3Butterfly3.real_dct2
theorem Type2And3Butterfly3.correct_dct3 : RunsV (Type2And3Butterfly3.new : Type2And3Butterfly3 ℝ).dct3 3 0 (Spec.dct3At 3) :=
  runsV_of_buffer Type2And3Butterfly3.real_dct3
theorem Type2And3Butterfly3.correct_dst2 : RunsV (Type2And3Butterfly3.new : Type2And3Butterfly3 ℝ).dst2 3 0 (Spec.dst2At 3) :=
  runsV_of_buffer Type2And3Butterfly3.real_dst2
theorem Type2And3Butterfly3.correct_dst3 : RunsV (Type2And3Butterfly3.new : Type2And3Butterfly3 ℝ).dst3 3 0 (Spec.dst3At 3) :=
  runsV_of_buffer Type2And3Butterfly3.real_dst3
theorem Type2And3Butterfly4.correct_dct2 : RunsV (Type2And3Butterfly4.new : Type2And3Butterfly4 ℝ).dct2 4 0 (Spec.dct2At 4) :=
  runsV_of_buffer Type2And3Butterfly4.real_dct2
theorem Type2And3Butterfly4.correct_dct3 : RunsV (Type2And3Butterfly4.new : Type2And3Butterfly4 ℝ).dct3 4 0 (Spec.dct3At 4) :=
  runsV_of_buffer Type2And3Butterfly4.real_dct3
theorem Type2And3Butterfly4.correct_dst2 : RunsV (Type2And3Butterfly4.new : Type2And3Butterfly4 ℝ).dst2 4 0 (Spec.dst2At 4) :=
  runsV_of_buffer Type2And3Butterfly4.real_dst2
theorem Type2And3Butterfly4.correct_dst3 : RunsV (Type2And3Butterfly4.new : Type2And3Butterfly4 ℝ).dst3 4 0 (Spec.dst3At 4) :=
  runsV_of_buffer Type2And3Butterfly4.real_dst3
theorem Type2And3Butterfly8.correct_dct2 : RunsV (Type2And3Butterfly8.new : Type2And3Butterfly8 ℝ).dct2 8 0 (Spec.dct2At 8) :=
  runsV_of_buffer Type2And3Butterfly8.real_dct2
theorem Type2And3Butterfly8.correct_dct3 : RunsV (Type2And3Butterfly8.new : Type2And3Butterfly8 ℝ).dct3 8 0 (Spec.dct3At 8) :=
  runsV_of_buffer Type2And3Butterfly8.real_dct3
theorem Type2And3Butterfly8.correct_dst2 : RunsV (Type2And3Butterfly8.new : Type2And3Butterfly8 ℝ).dst2 8 0 (Spec.dst2At 8) :=
  runsV_of_buffer Type2And3Butterfly8.real_dst2
theorem Type2And3Butterfly8.correct_dst3 : RunsV (Type2And3Butterfly8.new : Type2And3Butterfly8 ℝ).dst3 8 0 (Spec.dst3At 8) :=
  runsV_of_buffer Type2And3Butterfly8.real_dst3
theorem Type2And3Butterfly16.correct_dct2 : RunsV (Type2And3Butterfly16.new : Type2And3Butterfly16 ℝ).dct2 16 0 (Spec.dct2At 16) :=
  runsV_of_buffer Type2And3Butterfly16.real_dct2
theorem Type2And3Butterfly16.correct_dct3 : RunsV (Type2And3Butterfly16.new : Type2And3Butterfly16 ℝ).dct3 16 0 (Spec.dct3At 16) :=
  runsV_of_buffer Type2And3Butterfly16.real_dct3
theorem Type2And3Butterfly16.correct_dst2 : RunsV (Type2And3Butterfly16.new : Type2And3Butterfly16 ℝ).dst2 16 0 (Spec.dst2At 16) :=
  runsV_of_buffer Type2And3Butterfly16.real_dst2
theorem Type2And3Butterfly16.correct_dst3 : RunsV (Type2And3Butterfly16.new : Type2And3Butterfly16 ℝ).dst3 16 0 (Spec.dst3At 16) :=
  runsV_of_buffer Type2And3Butterfly16.real_dst3

end RustDct
