import Verif.Lib.Vec
import Verif.Model.Butterflies
/-!
# What the fixed-size kernels compute, for every element type

Sizes 8 and 16: in terms of the results of the inner kernels.
-/

set_option linter.all false

namespace RustDct
variable {T : Type} {F : Type} [F64 F] [DctNum T F]

section
variable {α : Type}
/- These are stated with proofs that are not `rfl`, so that `simp` records each rewriting step and the kernel does not
have to rediscover it by unfolding. -/
theorem okBind {ε β : Type} (a : α) (f : α → Except ε β) : (Except.ok a >>= f) = f a := by simp
theorem rdU_zero (a : α) (l) : rdU (a :: l) 0 = .ok a := by simp [rdU]
theorem rdU_succ (a : α) (l) (i) : rdU (a :: l) (i + 1) = rdU l i := by simp [rdU]
theorem rd_zero (a : α) (l) : rd (a :: l) 0 = .ok a := by simp [rd]
theorem rd_succ (a : α) (l) (i) : rd (a :: l) (i + 1) = rd l i := by simp [rd]
theorem wrU_zero (a : α) (l v) : wrU (a :: l) 0 v = .ok (v :: l) := by simp [wrU]
theorem wrU_succ (a : α) (l) (i v) : wrU (a :: l) (i + 1) v = (wrU l i v >>= fun l' => .ok (a :: l')) := by
  simp only [wrU, List.length_cons, Nat.add_lt_add_iff_right, List.set_cons_succ]
  split <;> rfl
theorem wr_zero (a : α) (l v) : wr (a :: l) 0 v = .ok (v :: l) := by simp [wr]
theorem wr_succ (a : α) (l) (i v) : wr (a :: l) (i + 1) v = (wr l i v >>= fun l' => .ok (a :: l')) := by
  simp only [wr, List.length_cons, Nat.add_lt_add_iff_right, List.set_cons_succ]
  split <;> rfl
theorem range02 : List.range' 0 2 = [0, 1] := rfl
theorem range04 : List.range' 0 4 = [0, 1, 2, 3] := rfl
theorem pure_ok {ε : Type} (a : α) : (pure a : Except ε α) = .ok a := by simp [pure, Except.pure]
theorem bind_ok_id {ε : Type} (x : Except ε α) : (x >>= fun a => .ok a) = x := by cases x <;> rfl
end

/-- Runs of a method that only validates the buffer. -/
theorem runsV_of_buffer {n : Nat} {body : List T → Except Err (List T)} {C : (Nat → T) → Nat → T}
    (h : ∀ f, body (vec n f) = .ok (vec n (C f))) : RunsV (fun m => validateBuffer m n body) n 0 C := by
  intro f scr _
  refine ⟨scr, ?_, rfl, rfl⟩
  simp [validateBuffer, h]

theorem Type2And3Butterfly2.inplaceDct2_gen (self : Type2And3Butterfly2 T) (f0 f1 : T) :
    self.inplaceDct2 [f0, f1] = .ok [f0 + f1, (f0 - f1) * DctNum.fracSqrt2] := by
  unfold Type2And3Butterfly2.inplaceDct2
  simp only [rdU_zero, rdU_succ, rd_zero, rd_succ, wrU_zero, wrU_succ, wr_zero, wr_succ, okBind]

theorem Type2And3Butterfly2.inplaceDct3_gen (self : Type2And3Butterfly2 T) (f0 f1 : T) :
    self.inplaceDct3 [f0, f1] = .ok [f0 * thalf T + f1 * DctNum.fracSqrt2, f0 * thalf T - f1 * DctNum.fracSqrt2] := by
  unfold Type2And3Butterfly2.inplaceDct3
  simp only [rdU_zero, rdU_succ, rd_zero, rd_succ, wrU_zero, wrU_succ, wr_zero, wr_succ, okBind]

theorem Type2And3Butterfly2.inplaceDst2_gen (self : Type2And3Butterfly2 T) (f0 f1 : T) :
    self.inplaceDst2 [f0, f1] = .ok [(f0 + f1) * DctNum.fracSqrt2, f0 - f1] := by
  unfold Type2And3Butterfly2.inplaceDst2
  simp only [rdU_zero, rdU_succ, rd_zero, rd_succ, wrU_zero, wrU_succ, wr_zero, wr_succ, okBind]

theorem Type2And3Butterfly2.inplaceDst3_gen (self : Type2And3Butterfly2 T) (f0 f1 : T) :
    self.inplaceDst3 [f0, f1] = .ok [f0 * DctNum.fracSqrt2 + f1 * thalf T, f0 * DctNum.fracSqrt2 - f1 * thalf T] := by
  unfold Type2And3Butterfly2.inplaceDst3
  simp only [rdU_zero, rdU_succ, rd_zero, rd_succ, wrU_zero, wrU_succ, wr_zero, wr_succ, okBind]

theorem Type2And3Butterfly3.inplaceDct2_gen (self : Type2And3Butterfly3 T) (f0 f1 f2 : T) :
    self.inplaceDct2 [f0, f1, f2] = .ok [f0 + f1 + f2, (f0 - f2) * self.twiddle, (f0 + f2) * thalf T - f1] := by
  unfold Type2And3Butterfly3.inplaceDct2
  simp only [rdU_zero, rdU_succ, rd_zero, rd_succ, wrU_zero, wrU_succ, wr_zero, wr_succ, okBind]

theorem Type2And3Butterfly3.inplaceDct3_gen (self : Type2And3Butterfly3 T) (f0 f1 f2 : T) :
    self.inplaceDct3 [f0, f1, f2] = .ok [f0 * thalf T + f1 * self.twiddle + f2 * thalf T, f0 * thalf T - f2, f0 * thalf T + f1 * -self.twiddle + f2 * thalf T] := by
  unfold Type2And3Butterfly3.inplaceDct3
  simp only [rdU_zero, rdU_succ, rd_zero, rd_succ, wrU_zero, wrU_succ, wr_zero, wr_succ, okBind]

theorem Type2And3Butterfly3.inplaceDst2_gen (self : Type2And3Butterfly3 T) (f0 f1 f2 : T) :
    self.inplaceDst2 [f0, f1, f2] = .ok [(f0 + f2) * thalf T + f1, (f0 - f2) * self.twiddle, f0 - f1 + f2] := by
  unfold Type2And3Butterfly3.inplaceDst2
  simp only [rdU_zero, rdU_succ, rd_zero, rd_succ, wrU_zero, wrU_succ, wr_zero, wr_succ, okBind]

theorem Type2And3Butterfly3.inplaceDst3_gen (self : Type2And3Butterfly3 T) (f0 f1 f2 : T) :
    self.inplaceDst3 [f0, f1, f2] = .ok [f2 * thalf T + f1 * self.twiddle + f0 * thalf T, f0 - f2 * thalf T, f2 * thalf T + f1 * -self.twiddle + f0 * thalf T] := by
  unfold Type2And3Butterfly3.inplaceDst3
  simp only [rdU_zero, rdU_succ, rd_zero, rd_succ, wrU_zero, wrU_succ, wr_zero, wr_succ, okBind]

theorem Type2And3Butterfly4.inplaceDct2_gen (self : Type2And3Butterfly4 T) (f0 f1 f2 f3 : T) :
    self.inplaceDct2 [f0, f1, f2, f3] = .ok [(f0 + f3) + (f2 + f1), (f0 - f3) * self.twiddle.re - (f2 - f1) * self.twiddle.im, ((f0 + f3) - (f2 + f1)) * DctNum.fracSqrt2,
      (f2 - f1) * self.twiddle.re + (f0 - f3) * self.twiddle.im] := by
  unfold Type2And3Butterfly4.inplaceDct2 Type2And3Butterfly2.scatteredDct2
  simp only [rdU_zero, rdU_succ, rd_zero, rd_succ, wrU_zero, wrU_succ, wr_zero, wr_succ, okBind]

theorem Type2And3Butterfly4.inplaceDst2_gen (self : Type2And3Butterfly4 T) (f0 f1 f2 f3 : T) :
    self.inplaceDst2 [f0, f1, f2, f3] = .ok [(f2 + f1) * self.twiddle.re + (f0 + f3) * self.twiddle.im, ((f0 - f3) - (f2 - f1)) * DctNum.fracSqrt2,
      (f0 + f3) * self.twiddle.re - (f2 + f1) * self.twiddle.im, (f0 - f3) + (f2 - f1)] := by
  unfold Type2And3Butterfly4.inplaceDst2 Type2And3Butterfly2.scatteredDct2
  simp only [rdU_zero, rdU_succ, rd_zero, rd_succ, wrU_zero, wrU_succ, wr_zero, wr_succ, okBind]

theorem Type2And3Butterfly4.inplaceDct3_gen (self : Type2And3Butterfly4 T) (f0 f1 f2 f3 : T) :
    self.inplaceDct3 [f0, f1, f2, f3] = .ok [f0 * thalf T + f2 * DctNum.fracSqrt2 + (f1 * self.twiddle.re + f3 * self.twiddle.im), f0 * thalf T - f2 * DctNum.fracSqrt2 + (f1 * self.twiddle.im - f3 * self.twiddle.re),
      f0 * thalf T - f2 * DctNum.fracSqrt2 - (f1 * self.twiddle.im - f3 * self.twiddle.re), f0 * thalf T + f2 * DctNum.fracSqrt2 - (f1 * self.twiddle.re + f3 * self.twiddle.im)] := by
  unfold Type2And3Butterfly4.inplaceDct3 Type2And3Butterfly2.scatteredDct3
  simp only [rdU_zero, rdU_succ, rd_zero, rd_succ, wrU_zero, wrU_succ, wr_zero, wr_succ, okBind]

theorem Type2And3Butterfly4.inplaceDst3_gen (self : Type2And3Butterfly4 T) (f0 f1 f2 f3 : T) :
    self.inplaceDst3 [f0, f1, f2, f3] = .ok [f3 * thalf T + f1 * DctNum.fracSqrt2 + (f2 * self.twiddle.re + f0 * self.twiddle.im), -(f3 * thalf T - f1 * DctNum.fracSqrt2 + (f2 * self.twiddle.im - f0 * self.twiddle.re)),
      f3 * thalf T - f1 * DctNum.fracSqrt2 - (f2 * self.twiddle.im - f0 * self.twiddle.re), f2 * self.twiddle.re + f0 * self.twiddle.im - (f3 * thalf T + f1 * DctNum.fracSqrt2)] := by
  unfold Type2And3Butterfly4.inplaceDst3 Type2And3Butterfly2.scatteredDct3
  simp only [rdU_zero, rdU_succ, rd_zero, rd_succ, wrU_zero, wrU_succ, wr_zero, wr_succ, okBind]

theorem Type2And3Butterfly8.inplaceDct2_gen (self : Type2And3Butterfly8 T) {t0 t1 : Cx T}
    (ht : self.twiddles = [t0, t1])
    {f0 f1 f2 f3 f4 f5 f6 f7 d0 d1 d2 d3 e0 e1 o0 o1 : T}
    (hd : self.butterfly4.inplaceDct2 [f0 + f7,
        f1 + f6,
        f2 + f5,
        f3 + f4] = .ok [d0, d1, d2, d3])
    (he : self.butterfly2.inplaceDct2 [(f0 - f7) * t0.re + (f3 - f4) * t0.im,
        (f1 - f6) * t1.re + (f2 - f5) * t1.im] = .ok [e0, e1])
    (ho : self.butterfly2.inplaceDst2 [(f2 - f5) * t1.re - (f1 - f6) * t1.im,
        (f3 - f4) * t0.re - (f0 - f7) * t0.im] = .ok [o0, o1])
    : self.inplaceDct2 [f0, f1, f2, f3, f4, f5, f6, f7] = .ok [d0,
      e0,
      d1,
      e1 - o0,
      d2,
      e1 + o0,
      d3,
      o1] := by
  unfold Type2And3Butterfly8.inplaceDct2
  simp only [forRange, range02, range04, List.foldlM_cons, List.foldlM_nil, pure_ok, bind_ok_id, rdU_zero, rdU_succ, okBind, hd, he, ho, ht, rd_zero, rd_succ, wrU_zero, wrU_succ,
    Nat.sub_zero, Nat.reduceSub, Nat.reduceAdd, Nat.add_zero, Nat.zero_add]

theorem Type2And3Butterfly8.inplaceDct3_gen (self : Type2And3Butterfly8 T) {t0 t1 : Cx T}
    (ht : self.twiddles = [t0, t1])
    {f0 f1 f2 f3 f4 f5 f6 f7 d0 d1 d2 d3 e0 e1 o0 o1 : T}
    (hd : self.butterfly4.inplaceDct3 [f0,
        f2,
        f4,
        f6] = .ok [d0, d1, d2, d3])
    (he : self.butterfly2.inplaceDct3 [f1 * ttwo T,
        f3 + f5] = .ok [e0, e1])
    (ho : self.butterfly2.inplaceDst3 [f3 - f5,
        f7 * ttwo T] = .ok [o0, o1])
    : self.inplaceDct3 [f0, f1, f2, f3, f4, f5, f6, f7] = .ok [d0 + (e0 * t0.re + o0 * t0.im),
      d1 + (e1 * t1.re + o1 * t1.im),
      d2 + (e1 * t1.im - o1 * t1.re),
      d3 + (e0 * t0.im - o0 * t0.re),
      d3 - (e0 * t0.im - o0 * t0.re),
      d2 - (e1 * t1.im - o1 * t1.re),
      d1 - (e1 * t1.re + o1 * t1.im),
      d0 - (e0 * t0.re + o0 * t0.im)] := by
  unfold Type2And3Butterfly8.inplaceDct3
  simp only [forRange, range02, range04, List.foldlM_cons, List.foldlM_nil, pure_ok, bind_ok_id, rdU_zero, rdU_succ, okBind, hd, he, ho, ht, rd_zero, rd_succ, wrU_zero, wrU_succ,
    Nat.sub_zero, Nat.reduceSub, Nat.reduceAdd, Nat.add_zero, Nat.zero_add]

theorem Type2And3Butterfly8.inplaceDst2_gen (self : Type2And3Butterfly8 T) {t0 t1 : Cx T}
    (ht : self.twiddles = [t0, t1])
    {f0 f1 f2 f3 f4 f5 f6 f7 d0 d1 d2 d3 e0 e1 o0 o1 : T}
    (hd : self.butterfly4.inplaceDct2 [f0 - f7,
        f6 - f1,
        f2 - f5,
        f4 - f3] = .ok [d0, d1, d2, d3])
    (he : self.butterfly2.inplaceDct2 [(f0 + f7) * t0.re + (-f3 - f4) * t0.im,
        (-f1 - f6) * t1.re + (f2 + f5) * t1.im] = .ok [e0, e1])
    (ho : self.butterfly2.inplaceDst2 [(f2 + f5) * t1.re - (-f1 - f6) * t1.im,
        (-f3 - f4) * t0.re - (f0 + f7) * t0.im] = .ok [o0, o1])
    : self.inplaceDst2 [f0, f1, f2, f3, f4, f5, f6, f7] = .ok [o1,
      d3,
      e1 + o0,
      d2,
      e1 - o0,
      d1,
      e0,
      d0] := by
  unfold Type2And3Butterfly8.inplaceDst2
  simp only [forRange, range02, range04, List.foldlM_cons, List.foldlM_nil, pure_ok, bind_ok_id, rdU_zero, rdU_succ, okBind, hd, he, ho, ht, rd_zero, rd_succ, wrU_zero, wrU_succ,
    Nat.sub_zero, Nat.reduceSub, Nat.reduceAdd, Nat.add_zero, Nat.zero_add]

theorem Type2And3Butterfly8.inplaceDst3_gen (self : Type2And3Butterfly8 T) {t0 t1 : Cx T}
    (ht : self.twiddles = [t0, t1])
    {f0 f1 f2 f3 f4 f5 f6 f7 d0 d1 d2 d3 e0 e1 o0 o1 : T}
    (hd : self.butterfly4.inplaceDct3 [f7,
        f5,
        f3,
        f1] = .ok [d0, d1, d2, d3])
    (he : self.butterfly2.inplaceDct3 [f6 * ttwo T,
        f4 + f2] = .ok [e0, e1])
    (ho : self.butterfly2.inplaceDst3 [f4 - f2,
        f0 * ttwo T] = .ok [o0, o1])
    : self.inplaceDst3 [f0, f1, f2, f3, f4, f5, f6, f7] = .ok [d0 + (e0 * t0.re + o0 * t0.im),
      -(d1 + (e1 * t1.re + o1 * t1.im)),
      d2 + (e1 * t1.im - o1 * t1.re),
      -(d3 + (e0 * t0.im - o0 * t0.re)),
      d3 - (e0 * t0.im - o0 * t0.re),
      (e1 * t1.im - o1 * t1.re) - d2,
      d1 - (e1 * t1.re + o1 * t1.im),
      (e0 * t0.re + o0 * t0.im) - d0] := by
  unfold Type2And3Butterfly8.inplaceDst3
  simp only [forRange, range02, range04, List.foldlM_cons, List.foldlM_nil, pure_ok, bind_ok_id, rdU_zero, rdU_succ, okBind, hd, he, ho, ht, rd_zero, rd_succ, wrU_zero, wrU_succ,
    Nat.sub_zero, Nat.reduceSub, Nat.reduceAdd, Nat.add_zero, Nat.zero_add]

theorem Type2And3Butterfly16.inplaceDct2_gen (self : Type2And3Butterfly16 T) {t0 t1 t2 t3 : Cx T}
    (ht : self.twiddles = [t0, t1, t2, t3])
    {f0 f1 f2 f3 f4 f5 f6 f7 f8 f9 f10 f11 f12 f13 f14 f15 d0 d1 d2 d3 d4 d5 d6 d7 e0 e1 e2 e3 o0 o1 o2 o3 : T}
    (hd : self.butterfly8.inplaceDct2 [f0 + f15,
        f1 + f14,
        f2 + f13,
        f3 + f12,
        f4 + f11,
        f5 + f10,
        f6 + f9,
        f7 + f8] = .ok [d0, d1, d2, d3, d4, d5, d6, d7])
    (he : self.butterfly4.inplaceDct2 [(f0 - f15) * t0.re + (f7 - f8) * t0.im,
        (f1 - f14) * t1.re + (f6 - f9) * t1.im,
        (f2 - f13) * t2.re + (f5 - f10) * t2.im,
        (f3 - f12) * t3.re + (f4 - f11) * t3.im] = .ok [e0, e1, e2, e3])
    (ho : self.butterfly4.inplaceDst2 [(f4 - f11) * t3.re - (f3 - f12) * t3.im,
        (f5 - f10) * t2.re - (f2 - f13) * t2.im,
        (f6 - f9) * t1.re - (f1 - f14) * t1.im,
        (f7 - f8) * t0.re - (f0 - f15) * t0.im] = .ok [o0, o1, o2, o3])
    : self.inplaceDct2 [f0, f1, f2, f3, f4, f5, f6, f7, f8, f9, f10, f11, f12, f13, f14, f15] = .ok [d0,
      e0,
      d1,
      e1 - o0,
      d2,
      e1 + o0,
      d3,
      e2 + o1,
      d4,
      e2 - o1,
      d5,
      e3 - o2,
      d6,
      e3 + o2,
      d7,
      o3] := by
  unfold Type2And3Butterfly16.inplaceDct2
  simp only [forRange, range02, range04, List.foldlM_cons, List.foldlM_nil, pure_ok, bind_ok_id, rdU_zero, rdU_succ, okBind, hd, he, ho, ht, rd_zero, rd_succ, wrU_zero, wrU_succ,
    Nat.sub_zero, Nat.reduceSub, Nat.reduceAdd, Nat.add_zero, Nat.zero_add]

theorem Type2And3Butterfly16.inplaceDct3_gen (self : Type2And3Butterfly16 T) {t0 t1 t2 t3 : Cx T}
    (ht : self.twiddles = [t0, t1, t2, t3])
    {f0 f1 f2 f3 f4 f5 f6 f7 f8 f9 f10 f11 f12 f13 f14 f15 d0 d1 d2 d3 d4 d5 d6 d7 e0 e1 e2 e3 o0 o1 o2 o3 : T}
    (hd : self.butterfly8.inplaceDct3 [f0,
        f2,
        f4,
        f6,
        f8,
        f10,
        f12,
        f14] = .ok [d0, d1, d2, d3, d4, d5, d6, d7])
    (he : self.butterfly4.inplaceDct3 [f1 * ttwo T,
        f3 + f5,
        f7 + f9,
        f11 + f13] = .ok [e0, e1, e2, e3])
    (ho : self.butterfly4.inplaceDst3 [f3 - f5,
        f7 - f9,
        f11 - f13,
        f15 * ttwo T] = .ok [o0, o1, o2, o3])
    : self.inplaceDct3 [f0, f1, f2, f3, f4, f5, f6, f7, f8, f9, f10, f11, f12, f13, f14, f15] = .ok [d0 + (e0 * t0.re + o0 * t0.im),
      d1 + (e1 * t1.re + o1 * t1.im),
      d2 + (e2 * t2.re + o2 * t2.im),
      d3 + (e3 * t3.re + o3 * t3.im),
      d4 + (e3 * t3.im - o3 * t3.re),
      d5 + (e2 * t2.im - o2 * t2.re),
      d6 + (e1 * t1.im - o1 * t1.re),
      d7 + (e0 * t0.im - o0 * t0.re),
      d7 - (e0 * t0.im - o0 * t0.re),
      d6 - (e1 * t1.im - o1 * t1.re),
      d5 - (e2 * t2.im - o2 * t2.re),
      d4 - (e3 * t3.im - o3 * t3.re),
      d3 - (e3 * t3.re + o3 * t3.im),
      d2 - (e2 * t2.re + o2 * t2.im),
      d1 - (e1 * t1.re + o1 * t1.im),
      d0 - (e0 * t0.re + o0 * t0.im)] := by
  unfold Type2And3Butterfly16.inplaceDct3
  simp only [forRange, range02, range04, List.foldlM_cons, List.foldlM_nil, pure_ok, bind_ok_id, rdU_zero, rdU_succ, okBind, hd, he, ho, ht, rd_zero, rd_succ, wrU_zero, wrU_succ,
    Nat.sub_zero, Nat.reduceSub, Nat.reduceAdd, Nat.add_zero, Nat.zero_add]

theorem Type2And3Butterfly16.inplaceDst2_gen (self : Type2And3Butterfly16 T) {t0 t1 t2 t3 : Cx T}
    (ht : self.twiddles = [t0, t1, t2, t3])
    {f0 f1 f2 f3 f4 f5 f6 f7 f8 f9 f10 f11 f12 f13 f14 f15 d0 d1 d2 d3 d4 d5 d6 d7 e0 e1 e2 e3 o0 o1 o2 o3 : T}
    (hd : self.butterfly8.inplaceDct2 [f0 - f15,
        -f1 + f14,
        f2 - f13,
        -f3 + f12,
        f4 - f11,
        -f5 + f10,
        f6 - f9,
        -f7 + f8] = .ok [d0, d1, d2, d3, d4, d5, d6, d7])
    (he : self.butterfly4.inplaceDct2 [(f0 + f15) * t0.re + (-f7 - f8) * t0.im,
        (-f1 - f14) * t1.re + (f6 + f9) * t1.im,
        (f2 + f13) * t2.re + (-f5 - f10) * t2.im,
        (-f3 - f12) * t3.re + (f4 + f11) * t3.im] = .ok [e0, e1, e2, e3])
    (ho : self.butterfly4.inplaceDst2 [(f4 + f11) * t3.re - (-f3 - f12) * t3.im,
        (-f5 - f10) * t2.re - (f2 + f13) * t2.im,
        (f6 + f9) * t1.re - (-f1 - f14) * t1.im,
        (-f7 - f8) * t0.re - (f0 + f15) * t0.im] = .ok [o0, o1, o2, o3])
    : self.inplaceDst2 [f0, f1, f2, f3, f4, f5, f6, f7, f8, f9, f10, f11, f12, f13, f14, f15] = .ok [o3,
      d7,
      e3 + o2,
      d6,
      e3 - o2,
      d5,
      e2 - o1,
      d4,
      e2 + o1,
      d3,
      e1 + o0,
      d2,
      e1 - o0,
      d1,
      e0,
      d0] := by
  unfold Type2And3Butterfly16.inplaceDst2
  simp only [forRange, range02, range04, List.foldlM_cons, List.foldlM_nil, pure_ok, bind_ok_id, rdU_zero, rdU_succ, okBind, hd, he, ho, ht, rd_zero, rd_succ, wrU_zero, wrU_succ,
    Nat.sub_zero, Nat.reduceSub, Nat.reduceAdd, Nat.add_zero, Nat.zero_add]

theorem Type2And3Butterfly16.inplaceDst3_gen (self : Type2And3Butterfly16 T) {t0 t1 t2 t3 : Cx T}
    (ht : self.twiddles = [t0, t1, t2, t3])
    {f0 f1 f2 f3 f4 f5 f6 f7 f8 f9 f10 f11 f12 f13 f14 f15 d0 d1 d2 d3 d4 d5 d6 d7 e0 e1 e2 e3 o0 o1 o2 o3 : T}
    (hd : self.butterfly8.inplaceDct3 [f15,
        f13,
        f11,
        f9,
        f7,
        f5,
        f3,
        f1] = .ok [d0, d1, d2, d3, d4, d5, d6, d7])
    (he : self.butterfly4.inplaceDct3 [f14 * ttwo T,
        f12 + f10,
        f8 + f6,
        f4 + f2] = .ok [e0, e1, e2, e3])
    (ho : self.butterfly4.inplaceDst3 [f12 - f10,
        f8 - f6,
        f4 - f2,
        f0 * ttwo T] = .ok [o0, o1, o2, o3])
    : self.inplaceDst3 [f0, f1, f2, f3, f4, f5, f6, f7, f8, f9, f10, f11, f12, f13, f14, f15] = .ok [d0 + (e0 * t0.re + o0 * t0.im),
      -(d1 + (e1 * t1.re + o1 * t1.im)),
      d2 + (e2 * t2.re + o2 * t2.im),
      -(d3 + (e3 * t3.re + o3 * t3.im)),
      d4 + (e3 * t3.im - o3 * t3.re),
      -(d5 + (e2 * t2.im - o2 * t2.re)),
      d6 + (e1 * t1.im - o1 * t1.re),
      -(d7 + (e0 * t0.im - o0 * t0.re)),
      d7 - (e0 * t0.im - o0 * t0.re),
      (e1 * t1.im - o1 * t1.re) - d6,
      d5 - (e2 * t2.im - o2 * t2.re),
      (e3 * t3.im - o3 * t3.re) - d4,
      d3 - (e3 * t3.re + o3 * t3.im),
      (e2 * t2.re + o2 * t2.im) - d2,
      d1 - (e1 * t1.re + o1 * t1.im),
      (e0 * t0.re + o0 * t0.im) - d0] := by
  unfold Type2And3Butterfly16.inplaceDst3
  simp only [forRange, range02, range04, List.foldlM_cons, List.foldlM_nil, pure_ok, bind_ok_id, rdU_zero, rdU_succ, okBind, hd, he, ho, ht, rd_zero, rd_succ, wrU_zero, wrU_succ,
    Nat.sub_zero, Nat.reduceSub, Nat.reduceAdd, Nat.add_zero, Nat.zero_add]

end RustDct
