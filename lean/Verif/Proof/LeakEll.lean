import Verif.Proof.LeakSign

/-!
# Creating an ElligatorSwift encoding reveals what the library declassifies, and nothing else
-/

namespace Secp.Leak

open Model (Ge Gej Ctx GenCtx zeros put cInt)

/-- Two hash objects that differ in bytes of the buffer only that nothing reads. -/
def ShaPub (h h' : Hash.Sha) : Prop :=
  h.s = h'.s ∧ h.bytes = h'.bytes ∧ h.buf.length = 64 ∧ h'.buf.length = 64 ∧
    h.buf.take (h.bytes.toNat % 64) = h'.buf.take (h.bytes.toNat % 64)

theorem bufsize_eq (b : UInt64) : (b &&& 0x3F).toNat = b.toNat % 64 := by
  rw [UInt64.toNat_and]
  exact Nat.and_two_pow_sub_one_eq_mod _ 6

theorem memcpy_len {b d : List UInt8} {o : Nat} (hb : b.length = 64) (h : o + d.length ≤ 64) :
    (Hash.memcpy b o d).length = 64 := by
  simp [Hash.memcpy, hb]; omega

theorem memcpy_take {b d : List UInt8} {o : Nat} (hb : b.length = 64) (h : o + d.length ≤ 64) :
    (Hash.memcpy b o d).take (o + d.length) = b.take o ++ d := by
  have : (b.take o ++ d).length = o + d.length := by simp [hb]; omega
  rw [Hash.memcpy, List.take_append_of_le_length (by omega), List.take_of_length_le (by omega)]

/-- `writeLoop` reads the first `bufsize` bytes of the buffer only. -/
theorem writeLoop_pub (fuel : Nat) : ∀ {s : List UInt32} {b b' d : List UInt8} {o : Nat},
    b.length = 64 → b'.length = 64 → o < 64 → d.length < fuel → b.take o = b'.take o →
    (Hash.writeLoop fuel s b o d).1 = (Hash.writeLoop fuel s b' o d).1 ∧
    (Hash.writeLoop fuel s b o d).2.length = 64 ∧ (Hash.writeLoop fuel s b' o d).2.length = 64 ∧
    (Hash.writeLoop fuel s b o d).2.take ((o + d.length) % 64) =
      (Hash.writeLoop fuel s b' o d).2.take ((o + d.length) % 64) := by
  induction fuel with
  | zero => intro s b b' d o _ _ _ h; omega
  | succ f ih =>
    intro s b b' d o hb hb' ho hd e
    unfold Hash.writeLoop
    by_cases h1 : d.length ≥ 64 - o
    · rw [if_pos h1, if_pos h1]
      have hl : (d.take (64 - o)).length = 64 - o := by simp; omega
      have hm : Hash.memcpy b o (d.take (64 - o)) = Hash.memcpy b' o (d.take (64 - o)) := by
        unfold Hash.memcpy
        rw [e, hl, List.drop_of_length_le (by omega), List.drop_of_length_le (by omega)]
      dsimp only
      rw [← hm]
      have h2 := memcpy_len (d := d.take (64 - o)) hb (by omega : o + (d.take (64 - o)).length ≤ 64)
      have h3 := ih (s := Hash.transform s (Hash.memcpy b o (d.take (64 - o)))) (d := d.drop (64 - o))
        h2 h2 (by omega : 0 < 64) (by simp; omega) rfl
      have h4 : (o + d.length) % 64 = (0 + (d.drop (64 - o)).length) % 64 := by simp; omega
      rw [h4]
      exact h3
    · rw [if_neg h1, if_neg h1]
      by_cases h2 : d.length ≠ 0
      · rw [if_pos h2, if_pos h2]
        refine ⟨rfl, memcpy_len hb (by omega), memcpy_len hb' (by omega), ?_⟩
        rw [Nat.mod_eq_of_lt (by omega), memcpy_take hb (by omega), memcpy_take hb' (by omega), e]
      · rw [if_neg h2, if_neg h2]
        refine ⟨rfl, hb, hb', ?_⟩
        have : d.length = 0 := by omega
        rw [this, Nat.add_zero, Nat.mod_eq_of_lt ho, e]

theorem write_pub {h h' : Hash.Sha} (hh : ShaPub h h') (d : List UInt8) :
    ShaPub (Hash.write h d) (Hash.write h' d) := by
  obtain ⟨h1, h2, h3, h4, h5⟩ := hh
  unfold Hash.write
  rw [← h1, ← h2, bufsize_eq]
  have h6 := writeLoop_pub (d.length + 1) (s := h.s) (d := d) h3 h4 (Nat.mod_lt _ (by omega))
    (by omega) h5
  refine ⟨h6.1, rfl, h6.2.1, h6.2.2.1, ?_⟩
  have h7 : (h.bytes + UInt64.ofNat d.length).toNat % 64 = (h.bytes.toNat % 64 + d.length) % 64 := by
    rw [UInt64.toNat_add, UInt64.toNat_ofNat']
    omega
  show List.take ((h.bytes + UInt64.ofNat d.length).toNat % 64) _ = List.take _ _
  rw [h7]
  exact h6.2.2.2

theorem finalize_pub {h h' : Hash.Sha} (hh : ShaPub h h') :
    (Hash.finalize h).1 = (Hash.finalize h').1 := by
  unfold Hash.finalize
  dsimp only
  rw [← hh.2.1]
  rw [(write_pub (write_pub hh _) _).1]

theorem ellswiftPrng_pub {h h' : Hash.Sha} (hh : ShaPub h h') (c : UInt32) :
    Model.ellswiftPrng h c = Model.ellswiftPrng h' c := finalize_pub (write_pub hh _)

theorem ellPool_pub {h h' : Hash.Sha} (hh : ShaPub h h') (b : List UInt8) (l : Nat) (c : UInt32) :
    Model.ellPool h b l c = Model.ellPool h' b l c := by
  unfold Model.ellPool
  rw [ellswiftPrng_pub hh]

theorem xelligatorswiftLoop_pub {h h' : Hash.Sha} (hh : ShaPub h h') (x : Fp) (fuel : Nat) :
    ∀ b l c, Model.xelligatorswiftLoop x h fuel b l c = Model.xelligatorswiftLoop x h' fuel b l c := by
  induction fuel with
  | zero => intros; rfl
  | succ f ih =>
    intro b l c
    unfold Model.xelligatorswiftLoop
    simp only [ellPool_pub hh, ellswiftPrng_pub hh, ih]

/-- The search for an encoding reads of the hash object what `shaNats` lists, and nothing else. -/
theorem elligatorswiftVar_pub {h h' : Hash.Sha} (hh : ShaPub h h') (fuel : Nat) (p : Ge Fp) :
    Model.elligatorswiftVar fuel p h = Model.elligatorswiftVar fuel p h' := by
  unfold Model.elligatorswiftVar Model.xelligatorswiftVar
  rw [xelligatorswiftLoop_pub hh]

theorem shaPub_of_nats {h h' : Hash.Sha} (hs : h.s.length = h'.s.length) (hb : h.buf.length = 64)
    (hb' : h'.buf.length = 64) (e : shaNats h = shaNats h') : ShaPub h h' := by
  unfold shaNats at e
  have e1 := List.append_inj e (by simpa using hs)
  have e2 := List.cons.inj e1.2
  have hbytes : h.bytes = h'.bytes := UInt64.toNat_inj.mp e2.1
  refine ⟨List.map_injective_iff.mpr (fun _ _ h => UInt32.toNat_inj.mp h) e1.1, hbytes, hb, hb', ?_⟩
  have := bytesNats_inj e2.2
  rwa [← hbytes] at this

theorem nats_of_shaPub {h h' : Hash.Sha} (hh : ShaPub h h') : shaNats h = shaNats h' := by
  unfold shaNats
  rw [← hh.1, ← hh.2.1, hh.2.2.2.2]

theorem write_buf_len {h : Hash.Sha} (hb : h.buf.length = 64) (d : List UInt8) :
    (Hash.write h d).buf.length = 64 :=
  (write_pub (h := h) (h' := h) ⟨rfl, rfl, hb, hb, rfl⟩ d).2.2.1

/-- The two hash objects, and that an observer cannot tell them apart. -/
theorem same_write_buf {h h' : Hash.Sha} {d d' : List UInt8} (hh : ShaEq h h') (hb : h.buf.length = 64)
    (hb' : h'.buf.length = 64) (hd : d.length = d'.length) :
    Same (fun a b => ShaEq a b ∧ a.buf.length = 64 ∧ b.buf.length = 64) (write h d) (write h' d') := by
  refine ⟨(same_write hh hd).1, (same_write hh hd).2, ?_, ?_⟩
  · rw [val_write]; exact write_buf_len hb d
  · rw [val_write]; exact write_buf_len hb' d'

theorem same_write_pub {h h' : Hash.Sha} (hh : ShaEq h h') (hp : ShaPub h h') (d : List UInt8) :
    Same ShaPub (write h d) (write h' d) := by
  refine ⟨(same_write hh rfl).1, ?_⟩
  rw [val_write, val_write]
  exact write_pub hp d

theorem agree_ellswiftCreate {c c' : Ctx} (h : SameKind c c') (fuel : Nat) {e e' s s' : Option (List UInt8)}
    (he : SameShape e e') (hs : SameShape s s') (aux : Option (List UInt8)) :
    Agree (fun _ _ => True) (ellswiftCreate c fuel e s aux) (ellswiftCreate c' fuel e' s' aux) := by
  unfold ellswiftCreate Model.ecmultGenIsBuilt
  rw [← h.2]
  obtain ⟨rfl, rfl⟩ | ⟨e, e', rfl, rfl, he1⟩ := he.cases
  · exact Agree.bind (Agree.branch rfl) fun _ _ _ => Agree.pure trivial
  refine Agree.bind (Agree.branch rfl) fun _ _ _ => Agree.bind (Agree.branch rfl) fun _ _ e =>
    Agree.ite e (fun _ => Agree.pure trivial) fun _ => ?_
  obtain ⟨rfl, rfl⟩ | ⟨s, s', rfl, rfl, hs1⟩ := hs.cases
  · exact Agree.bind (Agree.branch rfl) fun _ _ _ => Agree.pure trivial
  refine Agree.bind (Agree.branch rfl) fun _ _ _ =>
    Agree.bind (same_ecPubkeyCreateHelper h.1 s s').agree fun a b _ => ?_
  refine Agree.bind (Agree.declassify _ _) fun _ _ e => ?_
  rw [← geNats_inj e]
  refine Agree.bind (R := fun a b => a = b) (Same.agree ⟨rfl, rfl⟩) fun x x' e => ?_
  subst e
  refine Agree.bind (R := fun a b => a = b) (Same.agree ⟨rfl, rfl⟩) fun y y' e => ?_
  subst e
  refine Agree.bind (same_write_buf (shaEq_mid rfl rfl) rfl rfl (take_len _ hs1)).agree fun g g' hg => ?_
  refine Agree.bind (same_write_buf hg.1 hg.2.1 hg.2.2 rfl).agree fun g g' hg => ?_
  refine Agree.bind (Agree.declassify _ _) fun _ _ e => ?_
  have hp := shaPub_of_nats (hg.1.2.1.trans hg.1.2.2.symm) hg.2.1 hg.2.2 e
  refine Agree.bind (Agree.branch rfl) fun _ _ _ => ?_
  cases aux with
  | none =>
    refine Agree.bind (Agree.pure hp) fun k k' hk => ?_
    refine Agree.bind (Same.vartime (by rw [nats_of_shaPub hk]) (elligatorswiftVar_pub hk _ _)).agree
      fun r r' e => ?_
    subst e
    cases r <;> exact Agree.pure trivial
  | some aux =>
    refine Agree.bind (same_write_pub hg.1 hp _).agree fun k k' hk => ?_
    refine Agree.bind (Same.vartime (by rw [nats_of_shaPub hk]) (elligatorswiftVar_pub hk _ _)).agree
      fun r r' e => ?_
    subst e
    cases r <;> exact Agree.pure trivial

end Secp.Leak
