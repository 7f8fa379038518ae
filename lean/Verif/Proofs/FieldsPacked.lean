import Verif.Proofs.Fields
/-
The packed texels, one format at a time.
-/
namespace Cuttlefish
open Spec

theorem fields_R4G4 (X : Ext) (p : Pixel)
    (h : ∀ e ∈ ([(.R, 4), (.G, 4)] : List (Chan × Nat)), Storable .UNorm e.2 (e.1.of p)) :
    FieldsOK X (.packed .R4G4) .UNorm [(.R, 4), (.G, 4)] p := by
  have hr : F32.ofBits p.r ≠ .nan := (h (.R, 4) (by simp)).2.1
  have lr := unorm_lt (n := 4) hr (by norm_num)
  have er : maskU 255 0xf p.r = .ok (quantQ .UNorm 4 p.r) :=
    maskU_ok (n := 4) hr (by norm_num) (by norm_num)
  set qr := quantQ .UNorm 4 p.r with hqr
  have hg : F32.ofBits p.g ≠ .nan := (h (.G, 4) (by simp)).2.1
  have lg := unorm_lt (n := 4) hg (by norm_num)
  have eg : maskU 255 0xf p.g = .ok (quantQ .UNorm 4 p.g) :=
    maskU_ok (n := 4) hg (by norm_num) (by norm_num)
  set qg := quantQ .UNorm 4 p.g with hqg
  have hw : qg ||| (qr <<< 4) = qg + qr * 2 ^ 4 := by
    rw [or_shift (k := 4) (by omega)]
  refine ⟨leBytes 1 (qg + qr * 2 ^ 4), ?_, by simp [bitsOf], ?_⟩
  · simp only [texelBytes, packedBytes, er, eg, Res.ok_bind, Res.pure_eq, hw]
  · have hlt : qg + qr * 2 ^ 4 < 256 ^ 1 := by norm_num at *; omega
    simp only [texelFields, isArray, List.all_cons, List.all_nil, Nat.reduceMod, Nat.reduceBEq,
      Bool.and_false, Bool.and_true, Bool.false_eq_true, if_false,
      leVal_leBytes_of_lt hlt, wordFields, bitsOf, List.map_cons, List.map_nil, List.sum_cons,
      List.sum_nil, Chan.of]
    simp only [List.cons.injEq, Prod.mk.injEq, true_and, and_true]
    norm_num at *
    refine ⟨?_, ?_⟩ <;> omega

theorem fields_R4G4B4A4 (X : Ext) (p : Pixel)
    (h : ∀ e ∈ ([(.R, 4), (.G, 4), (.B, 4), (.A, 4)] : List (Chan × Nat)), Storable .UNorm e.2 (e.1.of p)) :
    FieldsOK X (.packed .R4G4B4A4) .UNorm [(.R, 4), (.G, 4), (.B, 4), (.A, 4)] p := by
  have hr : F32.ofBits p.r ≠ .nan := (h (.R, 4) (by simp)).2.1
  have lr := unorm_lt (n := 4) hr (by norm_num)
  have er : maskU 65535 0xf p.r = .ok (quantQ .UNorm 4 p.r) :=
    maskU_ok (n := 4) hr (by norm_num) (by norm_num)
  set qr := quantQ .UNorm 4 p.r with hqr
  have hg : F32.ofBits p.g ≠ .nan := (h (.G, 4) (by simp)).2.1
  have lg := unorm_lt (n := 4) hg (by norm_num)
  have eg : maskU 65535 0xf p.g = .ok (quantQ .UNorm 4 p.g) :=
    maskU_ok (n := 4) hg (by norm_num) (by norm_num)
  set qg := quantQ .UNorm 4 p.g with hqg
  have hb : F32.ofBits p.b ≠ .nan := (h (.B, 4) (by simp)).2.1
  have lb := unorm_lt (n := 4) hb (by norm_num)
  have eb : maskU 65535 0xf p.b = .ok (quantQ .UNorm 4 p.b) :=
    maskU_ok (n := 4) hb (by norm_num) (by norm_num)
  set qb := quantQ .UNorm 4 p.b with hqb
  have ha : F32.ofBits p.a ≠ .nan := (h (.A, 4) (by simp)).2.1
  have la := unorm_lt (n := 4) ha (by norm_num)
  have ea : maskU 65535 0xf p.a = .ok (quantQ .UNorm 4 p.a) :=
    maskU_ok (n := 4) ha (by norm_num) (by norm_num)
  set qa := quantQ .UNorm 4 p.a with hqa
  have hw : qa ||| (qb <<< 4) ||| (qg <<< 8) ||| (qr <<< 12) = qa + qb * 2 ^ 4 + qg * 2 ^ 8 + qr * 2 ^ 12 := by
    rw [or_shift (k := 4) (by omega), or_shift (k := 8) (by omega), or_shift (k := 12) (by omega)]
  refine ⟨leBytes 2 (qa + qb * 2 ^ 4 + qg * 2 ^ 8 + qr * 2 ^ 12), ?_, by simp [bitsOf], ?_⟩
  · simp only [texelBytes, packedBytes, er, eg, eb, ea, Res.ok_bind, Res.pure_eq, hw]
  · have hlt : qa + qb * 2 ^ 4 + qg * 2 ^ 8 + qr * 2 ^ 12 < 256 ^ 2 := by norm_num at *; omega
    simp only [texelFields, isArray, List.all_cons, List.all_nil, Nat.reduceMod, Nat.reduceBEq,
      Bool.and_false, Bool.and_true, Bool.false_eq_true, if_false,
      leVal_leBytes_of_lt hlt, wordFields, bitsOf, List.map_cons, List.map_nil, List.sum_cons,
      List.sum_nil, Chan.of]
    simp only [List.cons.injEq, Prod.mk.injEq, true_and, and_true]
    norm_num at *
    refine ⟨?_, ?_, ?_, ?_⟩ <;> omega

theorem fields_B4G4R4A4 (X : Ext) (p : Pixel)
    (h : ∀ e ∈ ([(.B, 4), (.G, 4), (.R, 4), (.A, 4)] : List (Chan × Nat)), Storable .UNorm e.2 (e.1.of p)) :
    FieldsOK X (.packed .B4G4R4A4) .UNorm [(.B, 4), (.G, 4), (.R, 4), (.A, 4)] p := by
  have hb : F32.ofBits p.b ≠ .nan := (h (.B, 4) (by simp)).2.1
  have lb := unorm_lt (n := 4) hb (by norm_num)
  have eb : maskU 65535 0xf p.b = .ok (quantQ .UNorm 4 p.b) :=
    maskU_ok (n := 4) hb (by norm_num) (by norm_num)
  set qb := quantQ .UNorm 4 p.b with hqb
  have hg : F32.ofBits p.g ≠ .nan := (h (.G, 4) (by simp)).2.1
  have lg := unorm_lt (n := 4) hg (by norm_num)
  have eg : maskU 65535 0xf p.g = .ok (quantQ .UNorm 4 p.g) :=
    maskU_ok (n := 4) hg (by norm_num) (by norm_num)
  set qg := quantQ .UNorm 4 p.g with hqg
  have hr : F32.ofBits p.r ≠ .nan := (h (.R, 4) (by simp)).2.1
  have lr := unorm_lt (n := 4) hr (by norm_num)
  have er : maskU 65535 0xf p.r = .ok (quantQ .UNorm 4 p.r) :=
    maskU_ok (n := 4) hr (by norm_num) (by norm_num)
  set qr := quantQ .UNorm 4 p.r with hqr
  have ha : F32.ofBits p.a ≠ .nan := (h (.A, 4) (by simp)).2.1
  have la := unorm_lt (n := 4) ha (by norm_num)
  have ea : maskU 65535 0xf p.a = .ok (quantQ .UNorm 4 p.a) :=
    maskU_ok (n := 4) ha (by norm_num) (by norm_num)
  set qa := quantQ .UNorm 4 p.a with hqa
  have hw : qa ||| (qr <<< 4) ||| (qg <<< 8) ||| (qb <<< 12) = qa + qr * 2 ^ 4 + qg * 2 ^ 8 + qb * 2 ^ 12 := by
    rw [or_shift (k := 4) (by omega), or_shift (k := 8) (by omega), or_shift (k := 12) (by omega)]
  refine ⟨leBytes 2 (qa + qr * 2 ^ 4 + qg * 2 ^ 8 + qb * 2 ^ 12), ?_, by simp [bitsOf], ?_⟩
  · simp only [texelBytes, packedBytes, eb, eg, er, ea, Res.ok_bind, Res.pure_eq, hw]
  · have hlt : qa + qr * 2 ^ 4 + qg * 2 ^ 8 + qb * 2 ^ 12 < 256 ^ 2 := by norm_num at *; omega
    simp only [texelFields, isArray, List.all_cons, List.all_nil, Nat.reduceMod, Nat.reduceBEq,
      Bool.and_false, Bool.and_true, Bool.false_eq_true, if_false,
      leVal_leBytes_of_lt hlt, wordFields, bitsOf, List.map_cons, List.map_nil, List.sum_cons,
      List.sum_nil, Chan.of]
    simp only [List.cons.injEq, Prod.mk.injEq, true_and, and_true]
    norm_num at *
    refine ⟨?_, ?_, ?_, ?_⟩ <;> omega

theorem fields_A4R4G4B4 (X : Ext) (p : Pixel)
    (h : ∀ e ∈ ([(.A, 4), (.R, 4), (.G, 4), (.B, 4)] : List (Chan × Nat)), Storable .UNorm e.2 (e.1.of p)) :
    FieldsOK X (.packed .A4R4G4B4) .UNorm [(.A, 4), (.R, 4), (.G, 4), (.B, 4)] p := by
  have ha : F32.ofBits p.a ≠ .nan := (h (.A, 4) (by simp)).2.1
  have la := unorm_lt (n := 4) ha (by norm_num)
  have ea : maskU 65535 0xf p.a = .ok (quantQ .UNorm 4 p.a) :=
    maskU_ok (n := 4) ha (by norm_num) (by norm_num)
  set qa := quantQ .UNorm 4 p.a with hqa
  have hr : F32.ofBits p.r ≠ .nan := (h (.R, 4) (by simp)).2.1
  have lr := unorm_lt (n := 4) hr (by norm_num)
  have er : maskU 65535 0xf p.r = .ok (quantQ .UNorm 4 p.r) :=
    maskU_ok (n := 4) hr (by norm_num) (by norm_num)
  set qr := quantQ .UNorm 4 p.r with hqr
  have hg : F32.ofBits p.g ≠ .nan := (h (.G, 4) (by simp)).2.1
  have lg := unorm_lt (n := 4) hg (by norm_num)
  have eg : maskU 65535 0xf p.g = .ok (quantQ .UNorm 4 p.g) :=
    maskU_ok (n := 4) hg (by norm_num) (by norm_num)
  set qg := quantQ .UNorm 4 p.g with hqg
  have hb : F32.ofBits p.b ≠ .nan := (h (.B, 4) (by simp)).2.1
  have lb := unorm_lt (n := 4) hb (by norm_num)
  have eb : maskU 65535 0xf p.b = .ok (quantQ .UNorm 4 p.b) :=
    maskU_ok (n := 4) hb (by norm_num) (by norm_num)
  set qb := quantQ .UNorm 4 p.b with hqb
  have hw : qb ||| (qg <<< 4) ||| (qr <<< 8) ||| (qa <<< 12) = qb + qg * 2 ^ 4 + qr * 2 ^ 8 + qa * 2 ^ 12 := by
    rw [or_shift (k := 4) (by omega), or_shift (k := 8) (by omega), or_shift (k := 12) (by omega)]
  refine ⟨leBytes 2 (qb + qg * 2 ^ 4 + qr * 2 ^ 8 + qa * 2 ^ 12), ?_, by simp [bitsOf], ?_⟩
  · simp only [texelBytes, packedBytes, ea, er, eg, eb, Res.ok_bind, Res.pure_eq, hw]
  · have hlt : qb + qg * 2 ^ 4 + qr * 2 ^ 8 + qa * 2 ^ 12 < 256 ^ 2 := by norm_num at *; omega
    simp only [texelFields, isArray, List.all_cons, List.all_nil, Nat.reduceMod, Nat.reduceBEq,
      Bool.and_false, Bool.and_true, Bool.false_eq_true, if_false,
      leVal_leBytes_of_lt hlt, wordFields, bitsOf, List.map_cons, List.map_nil, List.sum_cons,
      List.sum_nil, Chan.of]
    simp only [List.cons.injEq, Prod.mk.injEq, true_and, and_true]
    norm_num at *
    refine ⟨?_, ?_, ?_, ?_⟩ <;> omega

theorem fields_R5G6B5 (X : Ext) (p : Pixel)
    (h : ∀ e ∈ ([(.R, 5), (.G, 6), (.B, 5)] : List (Chan × Nat)), Storable .UNorm e.2 (e.1.of p)) :
    FieldsOK X (.packed .R5G6B5) .UNorm [(.R, 5), (.G, 6), (.B, 5)] p := by
  have hr : F32.ofBits p.r ≠ .nan := (h (.R, 5) (by simp)).2.1
  have lr := unorm_lt (n := 5) hr (by norm_num)
  have er : maskU 65535 0x1f p.r = .ok (quantQ .UNorm 5 p.r) :=
    maskU_ok (n := 5) hr (by norm_num) (by norm_num)
  set qr := quantQ .UNorm 5 p.r with hqr
  have hg : F32.ofBits p.g ≠ .nan := (h (.G, 6) (by simp)).2.1
  have lg := unorm_lt (n := 6) hg (by norm_num)
  have eg : maskU 65535 0x3f p.g = .ok (quantQ .UNorm 6 p.g) :=
    maskU_ok (n := 6) hg (by norm_num) (by norm_num)
  set qg := quantQ .UNorm 6 p.g with hqg
  have hb : F32.ofBits p.b ≠ .nan := (h (.B, 5) (by simp)).2.1
  have lb := unorm_lt (n := 5) hb (by norm_num)
  have eb : maskU 65535 0x1f p.b = .ok (quantQ .UNorm 5 p.b) :=
    maskU_ok (n := 5) hb (by norm_num) (by norm_num)
  set qb := quantQ .UNorm 5 p.b with hqb
  have hw : qb ||| (qg <<< 5) ||| (qr <<< 11) = qb + qg * 2 ^ 5 + qr * 2 ^ 11 := by
    rw [or_shift (k := 5) (by omega), or_shift (k := 11) (by omega)]
  refine ⟨leBytes 2 (qb + qg * 2 ^ 5 + qr * 2 ^ 11), ?_, by simp [bitsOf], ?_⟩
  · simp only [texelBytes, packedBytes, er, eg, eb, Res.ok_bind, Res.pure_eq, hw]
  · have hlt : qb + qg * 2 ^ 5 + qr * 2 ^ 11 < 256 ^ 2 := by norm_num at *; omega
    simp only [texelFields, isArray, List.all_cons, List.all_nil, Nat.reduceMod, Nat.reduceBEq,
      Bool.and_false, Bool.and_true, Bool.false_eq_true, if_false,
      leVal_leBytes_of_lt hlt, wordFields, bitsOf, List.map_cons, List.map_nil, List.sum_cons,
      List.sum_nil, Chan.of]
    simp only [List.cons.injEq, Prod.mk.injEq, true_and, and_true]
    norm_num at *
    refine ⟨?_, ?_, ?_⟩ <;> omega

theorem fields_B5G6R5 (X : Ext) (p : Pixel)
    (h : ∀ e ∈ ([(.B, 5), (.G, 6), (.R, 5)] : List (Chan × Nat)), Storable .UNorm e.2 (e.1.of p)) :
    FieldsOK X (.packed .B5G6R5) .UNorm [(.B, 5), (.G, 6), (.R, 5)] p := by
  have hb : F32.ofBits p.b ≠ .nan := (h (.B, 5) (by simp)).2.1
  have lb := unorm_lt (n := 5) hb (by norm_num)
  have eb : maskU 65535 0x1f p.b = .ok (quantQ .UNorm 5 p.b) :=
    maskU_ok (n := 5) hb (by norm_num) (by norm_num)
  set qb := quantQ .UNorm 5 p.b with hqb
  have hg : F32.ofBits p.g ≠ .nan := (h (.G, 6) (by simp)).2.1
  have lg := unorm_lt (n := 6) hg (by norm_num)
  have eg : maskU 65535 0x3f p.g = .ok (quantQ .UNorm 6 p.g) :=
    maskU_ok (n := 6) hg (by norm_num) (by norm_num)
  set qg := quantQ .UNorm 6 p.g with hqg
  have hr : F32.ofBits p.r ≠ .nan := (h (.R, 5) (by simp)).2.1
  have lr := unorm_lt (n := 5) hr (by norm_num)
  have er : maskU 65535 0x1f p.r = .ok (quantQ .UNorm 5 p.r) :=
    maskU_ok (n := 5) hr (by norm_num) (by norm_num)
  set qr := quantQ .UNorm 5 p.r with hqr
  have hw : qr ||| (qg <<< 5) ||| (qb <<< 11) = qr + qg * 2 ^ 5 + qb * 2 ^ 11 := by
    rw [or_shift (k := 5) (by omega), or_shift (k := 11) (by omega)]
  refine ⟨leBytes 2 (qr + qg * 2 ^ 5 + qb * 2 ^ 11), ?_, by simp [bitsOf], ?_⟩
  · simp only [texelBytes, packedBytes, eb, eg, er, Res.ok_bind, Res.pure_eq, hw]
  · have hlt : qr + qg * 2 ^ 5 + qb * 2 ^ 11 < 256 ^ 2 := by norm_num at *; omega
    simp only [texelFields, isArray, List.all_cons, List.all_nil, Nat.reduceMod, Nat.reduceBEq,
      Bool.and_false, Bool.and_true, Bool.false_eq_true, if_false,
      leVal_leBytes_of_lt hlt, wordFields, bitsOf, List.map_cons, List.map_nil, List.sum_cons,
      List.sum_nil, Chan.of]
    simp only [List.cons.injEq, Prod.mk.injEq, true_and, and_true]
    norm_num at *
    refine ⟨?_, ?_, ?_⟩ <;> omega

theorem fields_R5G5B5A1 (X : Ext) (p : Pixel)
    (h : ∀ e ∈ ([(.R, 5), (.G, 5), (.B, 5), (.A, 1)] : List (Chan × Nat)), Storable .UNorm e.2 (e.1.of p)) :
    FieldsOK X (.packed .R5G5B5A1) .UNorm [(.R, 5), (.G, 5), (.B, 5), (.A, 1)] p := by
  have hr : F32.ofBits p.r ≠ .nan := (h (.R, 5) (by simp)).2.1
  have lr := unorm_lt (n := 5) hr (by norm_num)
  have er : maskU 65535 0x1f p.r = .ok (quantQ .UNorm 5 p.r) :=
    maskU_ok (n := 5) hr (by norm_num) (by norm_num)
  set qr := quantQ .UNorm 5 p.r with hqr
  have hg : F32.ofBits p.g ≠ .nan := (h (.G, 5) (by simp)).2.1
  have lg := unorm_lt (n := 5) hg (by norm_num)
  have eg : maskU 65535 0x1f p.g = .ok (quantQ .UNorm 5 p.g) :=
    maskU_ok (n := 5) hg (by norm_num) (by norm_num)
  set qg := quantQ .UNorm 5 p.g with hqg
  have hb : F32.ofBits p.b ≠ .nan := (h (.B, 5) (by simp)).2.1
  have lb := unorm_lt (n := 5) hb (by norm_num)
  have eb : maskU 65535 0x1f p.b = .ok (quantQ .UNorm 5 p.b) :=
    maskU_ok (n := 5) hb (by norm_num) (by norm_num)
  set qb := quantQ .UNorm 5 p.b with hqb
  have ha : F32.ofBits p.a ≠ .nan := (h (.A, 1) (by simp)).2.1
  have la := unorm_lt (n := 1) ha (by norm_num)
  have ea := a1_ok ha
  set qa := quantQ .UNorm 1 p.a with hqa
  have hw : qa ||| (qb <<< 1) ||| (qg <<< 6) ||| (qr <<< 11) = qa + qb * 2 ^ 1 + qg * 2 ^ 6 + qr * 2 ^ 11 := by
    rw [or_shift (k := 1) (by omega), or_shift (k := 6) (by omega), or_shift (k := 11) (by omega)]
  refine ⟨leBytes 2 (qa + qb * 2 ^ 1 + qg * 2 ^ 6 + qr * 2 ^ 11), ?_, by simp [bitsOf], ?_⟩
  · simp only [texelBytes, packedBytes, er, eg, eb, ea, Res.ok_bind, Res.pure_eq, hw]
  · have hlt : qa + qb * 2 ^ 1 + qg * 2 ^ 6 + qr * 2 ^ 11 < 256 ^ 2 := by norm_num at *; omega
    simp only [texelFields, isArray, List.all_cons, List.all_nil, Nat.reduceMod, Nat.reduceBEq,
      Bool.and_false, Bool.and_true, Bool.false_eq_true, if_false,
      leVal_leBytes_of_lt hlt, wordFields, bitsOf, List.map_cons, List.map_nil, List.sum_cons,
      List.sum_nil, Chan.of]
    simp only [List.cons.injEq, Prod.mk.injEq, true_and, and_true]
    norm_num at *
    refine ⟨?_, ?_, ?_, ?_⟩ <;> omega

theorem fields_B5G5R5A1 (X : Ext) (p : Pixel)
    (h : ∀ e ∈ ([(.B, 5), (.G, 5), (.R, 5), (.A, 1)] : List (Chan × Nat)), Storable .UNorm e.2 (e.1.of p)) :
    FieldsOK X (.packed .B5G5R5A1) .UNorm [(.B, 5), (.G, 5), (.R, 5), (.A, 1)] p := by
  have hb : F32.ofBits p.b ≠ .nan := (h (.B, 5) (by simp)).2.1
  have lb := unorm_lt (n := 5) hb (by norm_num)
  have eb : maskU 65535 0x1f p.b = .ok (quantQ .UNorm 5 p.b) :=
    maskU_ok (n := 5) hb (by norm_num) (by norm_num)
  set qb := quantQ .UNorm 5 p.b with hqb
  have hg : F32.ofBits p.g ≠ .nan := (h (.G, 5) (by simp)).2.1
  have lg := unorm_lt (n := 5) hg (by norm_num)
  have eg : maskU 65535 0x1f p.g = .ok (quantQ .UNorm 5 p.g) :=
    maskU_ok (n := 5) hg (by norm_num) (by norm_num)
  set qg := quantQ .UNorm 5 p.g with hqg
  have hr : F32.ofBits p.r ≠ .nan := (h (.R, 5) (by simp)).2.1
  have lr := unorm_lt (n := 5) hr (by norm_num)
  have er : maskU 65535 0x1f p.r = .ok (quantQ .UNorm 5 p.r) :=
    maskU_ok (n := 5) hr (by norm_num) (by norm_num)
  set qr := quantQ .UNorm 5 p.r with hqr
  have ha : F32.ofBits p.a ≠ .nan := (h (.A, 1) (by simp)).2.1
  have la := unorm_lt (n := 1) ha (by norm_num)
  have ea := a1_ok ha
  set qa := quantQ .UNorm 1 p.a with hqa
  have hw : qa ||| (qr <<< 1) ||| (qg <<< 6) ||| (qb <<< 11) = qa + qr * 2 ^ 1 + qg * 2 ^ 6 + qb * 2 ^ 11 := by
    rw [or_shift (k := 1) (by omega), or_shift (k := 6) (by omega), or_shift (k := 11) (by omega)]
  refine ⟨leBytes 2 (qa + qr * 2 ^ 1 + qg * 2 ^ 6 + qb * 2 ^ 11), ?_, by simp [bitsOf], ?_⟩
  · simp only [texelBytes, packedBytes, eb, eg, er, ea, Res.ok_bind, Res.pure_eq, hw]
  · have hlt : qa + qr * 2 ^ 1 + qg * 2 ^ 6 + qb * 2 ^ 11 < 256 ^ 2 := by norm_num at *; omega
    simp only [texelFields, isArray, List.all_cons, List.all_nil, Nat.reduceMod, Nat.reduceBEq,
      Bool.and_false, Bool.and_true, Bool.false_eq_true, if_false,
      leVal_leBytes_of_lt hlt, wordFields, bitsOf, List.map_cons, List.map_nil, List.sum_cons,
      List.sum_nil, Chan.of]
    simp only [List.cons.injEq, Prod.mk.injEq, true_and, and_true]
    norm_num at *
    refine ⟨?_, ?_, ?_, ?_⟩ <;> omega

theorem fields_A1R5G5B5 (X : Ext) (p : Pixel)
    (h : ∀ e ∈ ([(.A, 1), (.R, 5), (.G, 5), (.B, 5)] : List (Chan × Nat)), Storable .UNorm e.2 (e.1.of p)) :
    FieldsOK X (.packed .A1R5G5B5) .UNorm [(.A, 1), (.R, 5), (.G, 5), (.B, 5)] p := by
  have ha : F32.ofBits p.a ≠ .nan := (h (.A, 1) (by simp)).2.1
  have la := unorm_lt (n := 1) ha (by norm_num)
  have ea := a1_ok ha
  set qa := quantQ .UNorm 1 p.a with hqa
  have hr : F32.ofBits p.r ≠ .nan := (h (.R, 5) (by simp)).2.1
  have lr := unorm_lt (n := 5) hr (by norm_num)
  have er : maskU 65535 0x1f p.r = .ok (quantQ .UNorm 5 p.r) :=
    maskU_ok (n := 5) hr (by norm_num) (by norm_num)
  set qr := quantQ .UNorm 5 p.r with hqr
  have hg : F32.ofBits p.g ≠ .nan := (h (.G, 5) (by simp)).2.1
  have lg := unorm_lt (n := 5) hg (by norm_num)
  have eg : maskU 65535 0x1f p.g = .ok (quantQ .UNorm 5 p.g) :=
    maskU_ok (n := 5) hg (by norm_num) (by norm_num)
  set qg := quantQ .UNorm 5 p.g with hqg
  have hb : F32.ofBits p.b ≠ .nan := (h (.B, 5) (by simp)).2.1
  have lb := unorm_lt (n := 5) hb (by norm_num)
  have eb : maskU 65535 0x1f p.b = .ok (quantQ .UNorm 5 p.b) :=
    maskU_ok (n := 5) hb (by norm_num) (by norm_num)
  set qb := quantQ .UNorm 5 p.b with hqb
  have hw : qb ||| (qg <<< 5) ||| (qr <<< 10) ||| (qa <<< 15) = qb + qg * 2 ^ 5 + qr * 2 ^ 10 + qa * 2 ^ 15 := by
    rw [or_shift (k := 5) (by omega), or_shift (k := 10) (by omega), or_shift (k := 15) (by omega)]
  refine ⟨leBytes 2 (qb + qg * 2 ^ 5 + qr * 2 ^ 10 + qa * 2 ^ 15), ?_, by simp [bitsOf], ?_⟩
  · simp only [texelBytes, packedBytes, ea, er, eg, eb, Res.ok_bind, Res.pure_eq, hw]
  · have hlt : qb + qg * 2 ^ 5 + qr * 2 ^ 10 + qa * 2 ^ 15 < 256 ^ 2 := by norm_num at *; omega
    simp only [texelFields, isArray, List.all_cons, List.all_nil, Nat.reduceMod, Nat.reduceBEq,
      Bool.and_false, Bool.and_true, Bool.false_eq_true, if_false,
      leVal_leBytes_of_lt hlt, wordFields, bitsOf, List.map_cons, List.map_nil, List.sum_cons,
      List.sum_nil, Chan.of]
    simp only [List.cons.injEq, Prod.mk.injEq, true_and, and_true]
    norm_num at *
    refine ⟨?_, ?_, ?_, ?_⟩ <;> omega

theorem fields_A2R10G10B10UNorm (X : Ext) (p : Pixel)
    (h : ∀ e ∈ ([(.A, 2), (.R, 10), (.G, 10), (.B, 10)] : List (Chan × Nat)), Storable .UNorm e.2 (e.1.of p)) :
    FieldsOK X (.packed .A2R10G10B10UNorm) .UNorm [(.A, 2), (.R, 10), (.G, 10), (.B, 10)] p := by
  have ha : F32.ofBits p.a ≠ .nan := (h (.A, 2) (by simp)).2.1
  have la := unorm_lt (n := 2) ha (by norm_num)
  have ea : maskU (2 ^ 32 - 1) 0x3 p.a = .ok (quantQ .UNorm 2 p.a) :=
    maskU_ok (n := 2) ha (by norm_num) (by norm_num)
  set qa := quantQ .UNorm 2 p.a with hqa
  have hr : F32.ofBits p.r ≠ .nan := (h (.R, 10) (by simp)).2.1
  have lr := unorm_lt (n := 10) hr (by norm_num)
  have er : maskU (2 ^ 32 - 1) 0x3ff p.r = .ok (quantQ .UNorm 10 p.r) :=
    maskU_ok (n := 10) hr (by norm_num) (by norm_num)
  set qr := quantQ .UNorm 10 p.r with hqr
  have hg : F32.ofBits p.g ≠ .nan := (h (.G, 10) (by simp)).2.1
  have lg := unorm_lt (n := 10) hg (by norm_num)
  have eg : maskU (2 ^ 32 - 1) 0x3ff p.g = .ok (quantQ .UNorm 10 p.g) :=
    maskU_ok (n := 10) hg (by norm_num) (by norm_num)
  set qg := quantQ .UNorm 10 p.g with hqg
  have hb : F32.ofBits p.b ≠ .nan := (h (.B, 10) (by simp)).2.1
  have lb := unorm_lt (n := 10) hb (by norm_num)
  have eb : maskU (2 ^ 32 - 1) 0x3ff p.b = .ok (quantQ .UNorm 10 p.b) :=
    maskU_ok (n := 10) hb (by norm_num) (by norm_num)
  set qb := quantQ .UNorm 10 p.b with hqb
  have hw : qb ||| (qg <<< 10) ||| (qr <<< 20) ||| (qa <<< 30) = qb + qg * 2 ^ 10 + qr * 2 ^ 20 + qa * 2 ^ 30 := by
    rw [or_shift (k := 10) (by omega), or_shift (k := 20) (by omega), or_shift (k := 30) (by omega)]
  refine ⟨leBytes 4 (qb + qg * 2 ^ 10 + qr * 2 ^ 20 + qa * 2 ^ 30), ?_, by simp [bitsOf], ?_⟩
  · simp only [texelBytes, packedBytes, ea, er, eg, eb, Res.ok_bind, Res.pure_eq, hw]
  · have hlt : qb + qg * 2 ^ 10 + qr * 2 ^ 20 + qa * 2 ^ 30 < 256 ^ 4 := by norm_num at *; omega
    simp only [texelFields, isArray, List.all_cons, List.all_nil, Nat.reduceMod, Nat.reduceBEq,
      Bool.and_false, Bool.and_true, Bool.false_eq_true, if_false,
      leVal_leBytes_of_lt hlt, wordFields, bitsOf, List.map_cons, List.map_nil, List.sum_cons,
      List.sum_nil, Chan.of]
    simp only [List.cons.injEq, Prod.mk.injEq, true_and, and_true]
    norm_num at *
    refine ⟨?_, ?_, ?_, ?_⟩ <;> omega

theorem fields_A2R10G10B10UInt (X : Ext) (p : Pixel)
    (h : ∀ e ∈ ([(.A, 2), (.R, 10), (.G, 10), (.B, 10)] : List (Chan × Nat)), Storable .UInt e.2 (e.1.of p)) :
    FieldsOK X (.packed .A2R10G10B10UInt) .UInt [(.A, 2), (.R, 10), (.G, 10), (.B, 10)] p := by
  have ha : F32.ofBits p.a ≠ .nan := (h (.A, 2) (by simp)).2.1
  obtain ⟨ea, la⟩ := field_ok (n := 2) ha (by norm_num)
  replace ea : toField 0x3 p.a = .ok (quantQ .UInt 2 p.a) := ea
  set qa := quantQ .UInt 2 p.a with hqa
  have hr : F32.ofBits p.r ≠ .nan := (h (.R, 10) (by simp)).2.1
  obtain ⟨er, lr⟩ := field_ok (n := 10) hr (by norm_num)
  replace er : toField 0x3ff p.r = .ok (quantQ .UInt 10 p.r) := er
  set qr := quantQ .UInt 10 p.r with hqr
  have hg : F32.ofBits p.g ≠ .nan := (h (.G, 10) (by simp)).2.1
  obtain ⟨eg, lg⟩ := field_ok (n := 10) hg (by norm_num)
  replace eg : toField 0x3ff p.g = .ok (quantQ .UInt 10 p.g) := eg
  set qg := quantQ .UInt 10 p.g with hqg
  have hb : F32.ofBits p.b ≠ .nan := (h (.B, 10) (by simp)).2.1
  obtain ⟨eb, lb⟩ := field_ok (n := 10) hb (by norm_num)
  replace eb : toField 0x3ff p.b = .ok (quantQ .UInt 10 p.b) := eb
  set qb := quantQ .UInt 10 p.b with hqb
  have hw : qb ||| (qg <<< 10) ||| (qr <<< 20) ||| (qa <<< 30) = qb + qg * 2 ^ 10 + qr * 2 ^ 20 + qa * 2 ^ 30 := by
    rw [or_shift (k := 10) (by omega), or_shift (k := 20) (by omega), or_shift (k := 30) (by omega)]
  refine ⟨leBytes 4 (qb + qg * 2 ^ 10 + qr * 2 ^ 20 + qa * 2 ^ 30), ?_, by simp [bitsOf], ?_⟩
  · simp only [texelBytes, packedBytes, ea, er, eg, eb, Res.ok_bind, Res.pure_eq, hw]
  · have hlt : qb + qg * 2 ^ 10 + qr * 2 ^ 20 + qa * 2 ^ 30 < 256 ^ 4 := by norm_num at *; omega
    simp only [texelFields, isArray, List.all_cons, List.all_nil, Nat.reduceMod, Nat.reduceBEq,
      Bool.and_false, Bool.and_true, Bool.false_eq_true, if_false,
      leVal_leBytes_of_lt hlt, wordFields, bitsOf, List.map_cons, List.map_nil, List.sum_cons,
      List.sum_nil, Chan.of]
    simp only [List.cons.injEq, Prod.mk.injEq, true_and, and_true]
    norm_num at *
    refine ⟨?_, ?_, ?_, ?_⟩ <;> omega

theorem fields_A2B10G10R10UNorm (X : Ext) (p : Pixel)
    (h : ∀ e ∈ ([(.A, 2), (.B, 10), (.G, 10), (.R, 10)] : List (Chan × Nat)), Storable .UNorm e.2 (e.1.of p)) :
    FieldsOK X (.packed .A2B10G10R10UNorm) .UNorm [(.A, 2), (.B, 10), (.G, 10), (.R, 10)] p := by
  have ha : F32.ofBits p.a ≠ .nan := (h (.A, 2) (by simp)).2.1
  have la := unorm_lt (n := 2) ha (by norm_num)
  have ea : maskU (2 ^ 32 - 1) 0x3 p.a = .ok (quantQ .UNorm 2 p.a) :=
    maskU_ok (n := 2) ha (by norm_num) (by norm_num)
  set qa := quantQ .UNorm 2 p.a with hqa
  have hb : F32.ofBits p.b ≠ .nan := (h (.B, 10) (by simp)).2.1
  have lb := unorm_lt (n := 10) hb (by norm_num)
  have eb : maskU (2 ^ 32 - 1) 0x3ff p.b = .ok (quantQ .UNorm 10 p.b) :=
    maskU_ok (n := 10) hb (by norm_num) (by norm_num)
  set qb := quantQ .UNorm 10 p.b with hqb
  have hg : F32.ofBits p.g ≠ .nan := (h (.G, 10) (by simp)).2.1
  have lg := unorm_lt (n := 10) hg (by norm_num)
  have eg : maskU (2 ^ 32 - 1) 0x3ff p.g = .ok (quantQ .UNorm 10 p.g) :=
    maskU_ok (n := 10) hg (by norm_num) (by norm_num)
  set qg := quantQ .UNorm 10 p.g with hqg
  have hr : F32.ofBits p.r ≠ .nan := (h (.R, 10) (by simp)).2.1
  have lr := unorm_lt (n := 10) hr (by norm_num)
  have er : maskU (2 ^ 32 - 1) 0x3ff p.r = .ok (quantQ .UNorm 10 p.r) :=
    maskU_ok (n := 10) hr (by norm_num) (by norm_num)
  set qr := quantQ .UNorm 10 p.r with hqr
  have hw : qr ||| (qg <<< 10) ||| (qb <<< 20) ||| (qa <<< 30) = qr + qg * 2 ^ 10 + qb * 2 ^ 20 + qa * 2 ^ 30 := by
    rw [or_shift (k := 10) (by omega), or_shift (k := 20) (by omega), or_shift (k := 30) (by omega)]
  refine ⟨leBytes 4 (qr + qg * 2 ^ 10 + qb * 2 ^ 20 + qa * 2 ^ 30), ?_, by simp [bitsOf], ?_⟩
  · simp only [texelBytes, packedBytes, ea, eb, eg, er, Res.ok_bind, Res.pure_eq, hw]
  · have hlt : qr + qg * 2 ^ 10 + qb * 2 ^ 20 + qa * 2 ^ 30 < 256 ^ 4 := by norm_num at *; omega
    simp only [texelFields, isArray, List.all_cons, List.all_nil, Nat.reduceMod, Nat.reduceBEq,
      Bool.and_false, Bool.and_true, Bool.false_eq_true, if_false,
      leVal_leBytes_of_lt hlt, wordFields, bitsOf, List.map_cons, List.map_nil, List.sum_cons,
      List.sum_nil, Chan.of]
    simp only [List.cons.injEq, Prod.mk.injEq, true_and, and_true]
    norm_num at *
    refine ⟨?_, ?_, ?_, ?_⟩ <;> omega

theorem fields_A2B10G10R10UInt (X : Ext) (p : Pixel)
    (h : ∀ e ∈ ([(.A, 2), (.B, 10), (.G, 10), (.R, 10)] : List (Chan × Nat)), Storable .UInt e.2 (e.1.of p)) :
    FieldsOK X (.packed .A2B10G10R10UInt) .UInt [(.A, 2), (.B, 10), (.G, 10), (.R, 10)] p := by
  have ha : F32.ofBits p.a ≠ .nan := (h (.A, 2) (by simp)).2.1
  obtain ⟨ea, la⟩ := field_ok (n := 2) ha (by norm_num)
  replace ea : toField 0x3 p.a = .ok (quantQ .UInt 2 p.a) := ea
  set qa := quantQ .UInt 2 p.a with hqa
  have hb : F32.ofBits p.b ≠ .nan := (h (.B, 10) (by simp)).2.1
  obtain ⟨eb, lb⟩ := field_ok (n := 10) hb (by norm_num)
  replace eb : toField 0x3ff p.b = .ok (quantQ .UInt 10 p.b) := eb
  set qb := quantQ .UInt 10 p.b with hqb
  have hg : F32.ofBits p.g ≠ .nan := (h (.G, 10) (by simp)).2.1
  obtain ⟨eg, lg⟩ := field_ok (n := 10) hg (by norm_num)
  replace eg : toField 0x3ff p.g = .ok (quantQ .UInt 10 p.g) := eg
  set qg := quantQ .UInt 10 p.g with hqg
  have hr : F32.ofBits p.r ≠ .nan := (h (.R, 10) (by simp)).2.1
  obtain ⟨er, lr⟩ := field_ok (n := 10) hr (by norm_num)
  replace er : toField 0x3ff p.r = .ok (quantQ .UInt 10 p.r) := er
  set qr := quantQ .UInt 10 p.r with hqr
  have hw : qr ||| (qg <<< 10) ||| (qb <<< 20) ||| (qa <<< 30) = qr + qg * 2 ^ 10 + qb * 2 ^ 20 + qa * 2 ^ 30 := by
    rw [or_shift (k := 10) (by omega), or_shift (k := 20) (by omega), or_shift (k := 30) (by omega)]
  refine ⟨leBytes 4 (qr + qg * 2 ^ 10 + qb * 2 ^ 20 + qa * 2 ^ 30), ?_, by simp [bitsOf], ?_⟩
  · simp only [texelBytes, packedBytes, ea, eb, eg, er, Res.ok_bind, Res.pure_eq, hw]
  · have hlt : qr + qg * 2 ^ 10 + qb * 2 ^ 20 + qa * 2 ^ 30 < 256 ^ 4 := by norm_num at *; omega
    simp only [texelFields, isArray, List.all_cons, List.all_nil, Nat.reduceMod, Nat.reduceBEq,
      Bool.and_false, Bool.and_true, Bool.false_eq_true, if_false,
      leVal_leBytes_of_lt hlt, wordFields, bitsOf, List.map_cons, List.map_nil, List.sum_cons,
      List.sum_nil, Chan.of]
    simp only [List.cons.injEq, Prod.mk.injEq, true_and, and_true]
    norm_num at *
    refine ⟨?_, ?_, ?_, ?_⟩ <;> omega

theorem fields_B8G8R8 (X : Ext) (p : Pixel)
    (h : ∀ e ∈ ([(.B, 8), (.G, 8), (.R, 8)] : List (Chan × Nat)), Storable .UNorm e.2 (e.1.of p)) :
    FieldsOK X (.packed .B8G8R8) .UNorm [(.B, 8), (.G, 8), (.R, 8)] p := by
  obtain ⟨eb, lb⟩ := unorm_ok (n := 8) (top := 255) (h (.B, 8) (by simp)).2.1 (by norm_num) (by norm_num)
  replace eb : toUNorm 255 0xFF p.b = .ok (quantQ .UNorm 8 p.b) := eb
  obtain ⟨eg, lg⟩ := unorm_ok (n := 8) (top := 255) (h (.G, 8) (by simp)).2.1 (by norm_num) (by norm_num)
  replace eg : toUNorm 255 0xFF p.g = .ok (quantQ .UNorm 8 p.g) := eg
  obtain ⟨er, lr⟩ := unorm_ok (n := 8) (top := 255) (h (.R, 8) (by simp)).2.1 (by norm_num) (by norm_num)
  replace er : toUNorm 255 0xFF p.r = .ok (quantQ .UNorm 8 p.r) := er
  refine ⟨leBytes 1 (quantQ .UNorm 8 p.b) ++ leBytes 1 (quantQ .UNorm 8 p.g) ++ leBytes 1 (quantQ .UNorm 8 p.r), ?_, by simp [bitsOf], ?_⟩
  · simp only [texelBytes, packedBytes, eb, eg, er, Res.ok_bind, Res.pure_eq]
  · simp [texelFields, isArray, arrayFields, leBytes, leVal, Chan.of]
    exact ⟨lb, lg, lr⟩

theorem fields_B8G8R8A8 (X : Ext) (p : Pixel)
    (h : ∀ e ∈ ([(.B, 8), (.G, 8), (.R, 8), (.A, 8)] : List (Chan × Nat)), Storable .UNorm e.2 (e.1.of p)) :
    FieldsOK X (.packed .B8G8R8A8) .UNorm [(.B, 8), (.G, 8), (.R, 8), (.A, 8)] p := by
  obtain ⟨eb, lb⟩ := unorm_ok (n := 8) (top := 255) (h (.B, 8) (by simp)).2.1 (by norm_num) (by norm_num)
  replace eb : toUNorm 255 0xFF p.b = .ok (quantQ .UNorm 8 p.b) := eb
  obtain ⟨eg, lg⟩ := unorm_ok (n := 8) (top := 255) (h (.G, 8) (by simp)).2.1 (by norm_num) (by norm_num)
  replace eg : toUNorm 255 0xFF p.g = .ok (quantQ .UNorm 8 p.g) := eg
  obtain ⟨er, lr⟩ := unorm_ok (n := 8) (top := 255) (h (.R, 8) (by simp)).2.1 (by norm_num) (by norm_num)
  replace er : toUNorm 255 0xFF p.r = .ok (quantQ .UNorm 8 p.r) := er
  obtain ⟨ea, la⟩ := unorm_ok (n := 8) (top := 255) (h (.A, 8) (by simp)).2.1 (by norm_num) (by norm_num)
  replace ea : toUNorm 255 0xFF p.a = .ok (quantQ .UNorm 8 p.a) := ea
  refine ⟨leBytes 1 (quantQ .UNorm 8 p.b) ++ leBytes 1 (quantQ .UNorm 8 p.g) ++ leBytes 1 (quantQ .UNorm 8 p.r) ++ leBytes 1 (quantQ .UNorm 8 p.a), ?_, by simp [bitsOf], ?_⟩
  · simp only [texelBytes, packedBytes, eb, eg, er, ea, Res.ok_bind, Res.pure_eq]
  · simp [texelFields, isArray, arrayFields, leBytes, leVal, Chan.of]
    exact ⟨lb, lg, lr, la⟩

theorem fields_A8B8G8R8 (X : Ext) (p : Pixel)
    (h : ∀ e ∈ ([(.A, 8), (.B, 8), (.G, 8), (.R, 8)] : List (Chan × Nat)), Storable .UNorm e.2 (e.1.of p)) :
    FieldsOK X (.packed .A8B8G8R8) .UNorm [(.A, 8), (.B, 8), (.G, 8), (.R, 8)] p := by
  obtain ⟨ea, la⟩ := unorm_ok (n := 8) (top := 255) (h (.A, 8) (by simp)).2.1 (by norm_num) (by norm_num)
  replace ea : toUNorm 255 0xFF p.a = .ok (quantQ .UNorm 8 p.a) := ea
  obtain ⟨eb, lb⟩ := unorm_ok (n := 8) (top := 255) (h (.B, 8) (by simp)).2.1 (by norm_num) (by norm_num)
  replace eb : toUNorm 255 0xFF p.b = .ok (quantQ .UNorm 8 p.b) := eb
  obtain ⟨eg, lg⟩ := unorm_ok (n := 8) (top := 255) (h (.G, 8) (by simp)).2.1 (by norm_num) (by norm_num)
  replace eg : toUNorm 255 0xFF p.g = .ok (quantQ .UNorm 8 p.g) := eg
  obtain ⟨er, lr⟩ := unorm_ok (n := 8) (top := 255) (h (.R, 8) (by simp)).2.1 (by norm_num) (by norm_num)
  replace er : toUNorm 255 0xFF p.r = .ok (quantQ .UNorm 8 p.r) := er
  refine ⟨leBytes 1 (quantQ .UNorm 8 p.a) ++ leBytes 1 (quantQ .UNorm 8 p.b) ++ leBytes 1 (quantQ .UNorm 8 p.g) ++ leBytes 1 (quantQ .UNorm 8 p.r), ?_, by simp [bitsOf], ?_⟩
  · simp only [texelBytes, packedBytes, ea, eb, eg, er, Res.ok_bind, Res.pure_eq]
  · simp [texelFields, isArray, arrayFields, leBytes, leVal, Chan.of]
    exact ⟨la, lb, lg, lr⟩

theorem ifUNorm_some {k k' : Conv} {t : TType} (h : ifUNorm k t = some k') : t = .UNorm ∧ k = k' := by
  unfold ifUNorm at h
  split at h
  · exact ⟨‹_›, by simpa using h⟩
  · cases h

/-- The bytes of one texel of every format this code base encodes itself, channel by channel.
Excluded are the formats packed by glm or the hardware (half floats, `B10G11R11_UFloat`,
`E5B9G9R9_UFloat`). -/
theorem texel_fields (X : Ext) {c : Features} {f : Format} {t : TType} {k : Conv}
    {cs : List (Chan × Nat)} (hk : createConverter c f t = some k) (hcs : layout f = some cs)
    (ht : t ≠ .UFloat) (ht2 : t = .Float → ∀ e ∈ cs, e.2 = 32) (p : Pixel)
    (h : ∀ e ∈ cs, Storable t e.2 (e.1.of p)) : FieldsOK X k t cs p := by
  cases f <;> simp only [layout, reduceCtorEq, Option.some.injEq] at hcs <;> subst hcs <;>
    simp only [createConverter] at hk
  · obtain ⟨rfl, rfl⟩ := ifUNorm_some hk; exact fields_R4G4 X p h
  · obtain ⟨rfl, rfl⟩ := ifUNorm_some hk; exact fields_R4G4B4A4 X p h
  · obtain ⟨rfl, rfl⟩ := ifUNorm_some hk; exact fields_B4G4R4A4 X p h
  · obtain ⟨rfl, rfl⟩ := ifUNorm_some hk; exact fields_A4R4G4B4 X p h
  · obtain ⟨rfl, rfl⟩ := ifUNorm_some hk; exact fields_R5G6B5 X p h
  · obtain ⟨rfl, rfl⟩ := ifUNorm_some hk; exact fields_B5G6R5 X p h
  · obtain ⟨rfl, rfl⟩ := ifUNorm_some hk; exact fields_R5G5B5A1 X p h
  · obtain ⟨rfl, rfl⟩ := ifUNorm_some hk; exact fields_B5G5R5A1 X p h
  · obtain ⟨rfl, rfl⟩ := ifUNorm_some hk; exact fields_A1R5G5B5 X p h
  · exact create8_fields X hk p h
  · exact create8_fields X hk p h
  · exact create8_fields X hk p h
  · obtain ⟨rfl, rfl⟩ := ifUNorm_some hk; exact fields_B8G8R8 X p h
  · exact create8_fields X hk p h
  · obtain ⟨rfl, rfl⟩ := ifUNorm_some hk; exact fields_B8G8R8A8 X p h
  · obtain ⟨rfl, rfl⟩ := ifUNorm_some hk; exact fields_A8B8G8R8 X p h
  · cases t <;> simp only [reduceCtorEq, Option.some.injEq] at hk <;> subst hk
    · exact fields_A2R10G10B10UNorm X p h
    · exact fields_A2R10G10B10UInt X p h
  · cases t <;> simp only [reduceCtorEq, Option.some.injEq] at hk <;> subst hk
    · exact fields_A2B10G10R10UNorm X p h
    · exact fields_A2B10G10R10UInt X p h
  · exact create16_fields X hk (fun e => by simpa using ht2 e) p h
  · exact create16_fields X hk (fun e => by simpa using ht2 e) p h
  · exact create16_fields X hk (fun e => by simpa using ht2 e) p h
  · exact create16_fields X hk (fun e => by simpa using ht2 e) p h
  · exact create32_fields X hk p h
  · exact create32_fields X hk p h
  · exact create32_fields X hk p h
  · exact create32_fields X hk p h
  · by_cases e : t = .UFloat
    · exact absurd e ht
    · simp [e] at hk
  · by_cases e : t = .UFloat
    · exact absurd e ht
    · simp [e] at hk

end Cuttlefish
