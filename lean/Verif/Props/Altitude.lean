import Verif.Props.Frame
/-!
# C07-C11: altitude and identity codes
-/
set_option linter.unusedSimpArgs false
open Spec
namespace Modes

/-! ### The altitude field as an API: `fields.ReadAltitude` -/

theorem altitudeMeaning_functional (c : Nat) (m m' : AltitudeReportMethod) (a a' : Int)
    (h : AltitudeMeaning c m a) (h' : AltitudeMeaning c m' a') : m = m' ∧ a = a' := by
  have key : ∀ (a' : Int), c = 0 → ¬ AltitudeMeaning c .feet100 a' := by
    rintro a' h0 ⟨_, _, k, hk, hp, _⟩
    have := gillham_modeC k (by omega)
    rw [← hp, h0] at this
    have e := (gillham_err_iff (pulsesAC13 0)).2 (by decide)
    rw [e] at this
    cases this
  cases m <;> cases m' <;> simp only [AltitudeMeaning] at h h' key <;>
    first
    | exact ⟨rfl, by rw [h.2, h'.2]⟩
    | exact ⟨rfl, by rw [h.2.2, h'.2.2]⟩
    | (exfalso; obtain ⟨h1, _⟩ := h; obtain ⟨h2, _⟩ := h'; rw [h1] at h2; simp [mBit] at h2; done)
    | (exfalso; obtain ⟨h1, _⟩ := h; obtain ⟨_, h2, _⟩ := h'; rw [h1] at h2; simp [qBit] at h2; done)
    | (exfalso; obtain ⟨h1, _⟩ := h'; obtain ⟨h2, _⟩ := h; rw [h1] at h2; simp [mBit] at h2; done)
    | (exfalso; obtain ⟨h1, _⟩ := h'; obtain ⟨_, h2, _⟩ := h; rw [h1] at h2; simp [qBit] at h2; done)
    | (exfalso; obtain ⟨_, h1, _⟩ := h'; obtain ⟨_, h2, _⟩ := h; rw [h1] at h2; simp [qBit] at h2; done)
    | exact absurd h' (key _ h.1)
    | exact absurd h (key _ h'.1)
    | skip
  obtain ⟨_, _, k, hk, hp, ha⟩ := h
  obtain ⟨_, _, k', hk', hp', ha'⟩ := h'
  refine ⟨rfl, ?_⟩
  have e1 := gillham_modeC k (by omega)
  have e2 := gillham_modeC k' (by omega)
  rw [← hp] at e1
  rw [← hp', e1] at e2
  injection e2 with e2
  rw [ha, ha', e2]

/-- C10: `ReadAltitude` succeeds exactly with the meaning of the 13-bit code in bits 12-24 of the payload. -/
theorem readAltitude_ok_iff (md : MessageData) (h : 3 ≤ md.payload.length) (a : Int) (method : AltitudeReportMethod) :
    readAltitude md = .ok (a, method) ↔ AltitudeMeaning (bits (md.payload.take 3) 12 24) method a := by
  match hp : md.payload, h with
  | p0 :: p1 :: p2 :: rest, _ =>
    have e : bits ((p0 :: p1 :: p2 :: rest).take 3) 12 24 = p1.toNat % 32 * 256 + p2.toNat := by
      show bits [p0, p1, p2] 12 24 = _
      byte_omega
    rw [e]
    rcases readAltitude_eval md p0 p1 p2 rest hp _ rfl with ⟨m', a', he, hm⟩ | ⟨he, hi⟩
    · rw [he]
      constructor
      · intro h; injection h with h; injection h with h1 h2; subst h1 h2; exact hm
      · intro h
        obtain ⟨rfl, rfl⟩ := altitudeMeaning_functional _ _ _ _ _ hm h
        rfl
    · rw [he]
      constructor
      · intro h; cases h
      · intro h; exact absurd hi (altitudeMeaning_not_illegal _ _ _ h)

/-- C10: and it fails (without panicking) exactly for the codes that mean nothing. -/
theorem readAltitude_err_iff (md : MessageData) (h : 3 ≤ md.payload.length) :
    readAltitude md = .error .err ↔ AltitudeIllegal (bits (md.payload.take 3) 12 24) := by
  match hp : md.payload, h with
  | p0 :: p1 :: p2 :: rest, _ =>
    have e : bits ((p0 :: p1 :: p2 :: rest).take 3) 12 24 = p1.toNat % 32 * 256 + p2.toNat := by
      show bits [p0, p1, p2] 12 24 = _
      byte_omega
    rw [e]
    rcases readAltitude_eval md p0 p1 p2 rest hp _ rfl with ⟨m', a', he, hm⟩ | ⟨he, hi⟩
    · rw [he]
      exact ⟨fun h => (by cases h), fun h => absurd h (altitudeMeaning_not_illegal _ _ _ hm)⟩
    · rw [he]; exact ⟨fun _ => hi, fun _ => rfl⟩

example : readAltitude ⟨4, 0, [0, 0x16, 0xB8], [1, 2, 3]⟩ = .ok (35600, .feet25) := by
  rw [readAltitude_ok_iff _ (by decide)]; exact ⟨by decide, by decide, by decide⟩

/-! ### C07 -/

/-- The code that carries the 25-ft number `n` is unique. -/
theorem encode25_unique (n : Nat) (hn : n < 2048) (c : Nat) (hc : c < 8192) :
    (mBit c = false ∧ qBit c = true ∧ n25AC13 c = n) ↔ c = encode25 n := by
  constructor
  · rintro ⟨h1, h2, h3⟩
    unfold mBit at h1
    unfold qBit at h2
    rw [Nat.testBit_eq_decide_div_mod_eq] at h1 h2
    simp only [decide_eq_false_iff_not, decide_eq_true_eq, Nat.reducePow] at h1 h2
    unfold n25AC13 at h3
    unfold encode25
    omega
  · rintro rfl
    exact ⟨(encode25_bits n).1, (encode25_bits n).2, n25_encode25 n hn⟩

/-- C07: every multiple of 25 ft from -1000 to 50175 ft is reported in 25-ft coding by exactly one code, and no other
value is. -/
theorem altitude25_bijection (a : Int) :
    ((∃ n : Nat, n < 2048 ∧ a = 25 * (n : Int) - 1000) →
      ∃ c, (c < 8192 ∧ AltitudeMeaning c .feet25 a) ∧ ∀ c', c' < 8192 → AltitudeMeaning c' .feet25 a → c' = c) ∧
    ((∃ c, c < 8192 ∧ AltitudeMeaning c .feet25 a) → ∃ n : Nat, n < 2048 ∧ a = 25 * (n : Int) - 1000) := by
  constructor
  · rintro ⟨n, hn, rfl⟩
    refine ⟨encode25 n, ⟨encode25_lt n, ?_⟩, ?_⟩
    · obtain ⟨h1, h2⟩ := encode25_bits n
      exact ⟨h1, h2, by rw [n25_encode25 n hn]⟩
    · rintro c hc ⟨h1, h2, h3⟩
      exact (encode25_unique n hn c hc).1 ⟨h1, h2, by omega⟩
  · rintro ⟨c, hc, _, _, h⟩
    exact ⟨n25AC13 c, by unfold n25AC13; omega, h⟩

example : ∃ c, (c < 8192 ∧ AltitudeMeaning c .feet25 38000) ∧
    ∀ c', c' < 8192 → AltitudeMeaning c' .feet25 38000 → c' = c :=
  (altitude25_bijection 38000).1 ⟨1560, by decide, by decide⟩

/-! ### C08 -/

/-- C08: the Gillham decoder (all twelve pulses) returns every altitude from its standard code. -/
theorem gillham_decodes (k : Nat) (hk : k < 2560) :
    let p := modeC k
    gillhamToAltitude p.d1 p.d2 p.d4 p.a1 p.a2 p.a4 p.b1 p.b2 p.b4 p.c1 p.c2 p.c4 = .ok (100 * (k : Int) - 1200) :=
  gillham_modeC k hk

example : (let p := modeC 392; gillhamToAltitude p.d1 p.d2 p.d4 p.a1 p.a2 p.a4 p.b1 p.b2 p.b4 p.c1 p.c2 p.c4)
    = .ok 38000 := gillham_decodes 392 (by decide)

/-- C08: it rejects exactly the codes whose C pulses are 000, 111 or 101. -/
theorem gillham_rejects_iff (p : Pulses) :
    gillhamToAltitude p.d1 p.d2 p.d4 p.a1 p.a2 p.a4 p.b1 p.b2 p.b4 p.c1 p.c2 p.c4 = .error .err ↔
      (p.c1, p.c2, p.c4) ∈ [(false, false, false), (true, true, true), (true, false, true)] :=
  gillham_err_iff p

/-- C08: an accepted code is the standard code of the altitude returned. -/
theorem gillham_sound (p : Pulses) (a : Int)
    (h : gillhamToAltitude p.d1 p.d2 p.d4 p.a1 p.a2 p.a4 p.b1 p.b2 p.b4 p.c1 p.c2 p.c4 = .ok a) :
    ∃ k : Nat, k < 2560 ∧ a = 100 * (k : Int) - 1200 ∧ p = modeC k := gillham_ok_inv p a h

/-- C08: two different accepted codes never give the same altitude. -/
theorem gillham_injective (p q : Pulses) (a : Int)
    (hp : gillhamToAltitude p.d1 p.d2 p.d4 p.a1 p.a2 p.a4 p.b1 p.b2 p.b4 p.c1 p.c2 p.c4 = .ok a)
    (hq : gillhamToAltitude q.d1 q.d2 q.d4 q.a1 q.a2 q.a4 q.b1 q.b2 q.b4 q.c1 q.c2 q.c4 = .ok a) : p = q := by
  obtain ⟨k, _, h1, rfl⟩ := gillham_ok_inv p a hp
  obtain ⟨k', _, h2, rfl⟩ := gillham_ok_inv q a hq
  have : k = k' := by omega
  rw [this]

/-- C08 in a frame: every multiple of 100 ft from -1200 to 126700 ft has a 13-bit code (no D1 pulse) read back to it. -/
def acOfPulses (p : Pulses) : Nat :=
  p.c1.toNat * 4096 + p.a1.toNat * 2048 + p.c2.toNat * 1024 + p.a2.toNat * 512 + p.c4.toNat * 256 + p.a4.toNat * 128
    + p.b1.toNat * 32 + p.b2.toNat * 8 + p.d2.toNat * 4 + p.b4.toNat * 2 + p.d4.toNat

theorem acOfPulses_ok : ∀ d2 d4 a1 a2 a4 b1 b2 b4 c1 c2 c4 : Bool,
    let p : Pulses := ⟨false, d2, d4, a1, a2, a4, b1, b2, b4, c1, c2, c4⟩
    acOfPulses p < 8192 ∧ mBit (acOfPulses p) = false ∧ qBit (acOfPulses p) = false ∧ pulsesAC13 (acOfPulses p) = p := by
  decide +kernel

theorem modeC_d1 (k : Nat) (hk : k < 1280) : (modeC k).d1 = false := by
  have h1 : (k / 5).testBit 8 = false := by
    rw [Nat.testBit_eq_decide_div_mod_eq]; simp; omega
  have h2 : (k / 5 / 2).testBit 8 = false := by
    rw [Nat.testBit_eq_decide_div_mod_eq]; simp; omega
  simp only [modeC, gray, Nat.testBit_xor, h1, h2]; rfl

/-- C08: in a 13-bit altitude field. -/
theorem altitude100_complete (k : Nat) (hk : k < 1280) :
    ∃ c, c < 8192 ∧ AltitudeMeaning c .feet100 (100 * (k : Int) - 1200) := by
  have hd := modeC_d1 k hk
  cases hm : modeC k with
  | mk d1 d2 d4 a1 a2 a4 b1 b2 b4 c1 c2 c4 =>
    rw [hm] at hd
    simp only at hd
    subst hd
    obtain ⟨h1, h2, h3, h4⟩ := acOfPulses_ok d2 d4 a1 a2 a4 b1 b2 b4 c1 c2 c4
    exact ⟨_, h1, h2, h3, k, hk, by rw [h4, hm], rfl⟩

/-! ### C09 -/

/-- C09: neighbouring altitudes differ in exactly one pulse (whole domain of the code). -/
theorem modeC_distance : ∀ k < 2559, (modeC k).distance (modeC (k + 1)) = 1 := by
  decide +kernel

theorem mix_of_distance_one (l r m : List Bool) (hl : l.length = m.length) (hr : r.length = m.length)
    (hd : ((l.zip r).filter (fun x => x.1 != x.2)).length ≤ 1)
    (hm : ∀ i : Nat, m[i]? = l[i]? ∨ m[i]? = r[i]?) : m = l ∨ m = r := by
  induction m generalizing l r with
  | nil => left; cases l with
    | nil => rfl
    | cons => simp at hl
  | cons x m ih =>
    cases l with
    | nil => simp at hl
    | cons a l =>
      cases r with
      | nil => simp at hr
      | cons b r =>
        have hl' : l.length = m.length := by simpa using hl
        have hr' : r.length = m.length := by simpa using hr
        have h0 : x = a ∨ x = b := by simpa using hm 0
        have hm' : ∀ i : Nat, m[i]? = l[i]? ∨ m[i]? = r[i]? := by
          intro i
          simpa using hm (i + 1)
        by_cases hab : a = b
        · subst hab
          have hd' : ((l.zip r).filter (fun x => x.1 != x.2)).length ≤ 1 := by simpa using hd
          rcases h0 with h0 | h0 <;> subst h0 <;> rcases ih l r hl' hr' hd' hm' with h | h <;> subst h <;> simp
        · have hd' : ((l.zip r).filter (fun x => x.1 != x.2)) = [] := by
            have : ((a :: l).zip (b :: r)).filter (fun x => x.1 != x.2) = (a, b) :: (l.zip r).filter (fun x => x.1 != x.2) := by
              simp [hab]
            rw [this] at hd
            simp only [List.length_cons] at hd
            exact List.eq_nil_of_length_eq_zero (by omega)
          have hlr : l = r := by
            clear ih hm hm' hd hl hr h0
            induction l generalizing r m with
            | nil => cases r with
              | nil => rfl
              | cons => simp at hl' hr'; omega
            | cons u l ih2 => cases r with
              | nil => simp at hl' hr'; omega
              | cons v r =>
                simp only [List.zip_cons_cons, List.filter_cons] at hd'
                by_cases huv : u = v
                · subst huv
                  simp at hd'
                  cases m with
                  | nil => simp at hl'
                  | cons y m =>
                    rw [ih2 m r (by simpa using hl') (by simpa using hr') (by simpa using hd')]
                · simp [huv] at hd'
          subst hlr
          have := ih l l hl' hr' (by rw [hd']; simp) hm'
          have e : m = l := by rcases this with h | h <;> exact h
          subst e
          rcases h0 with h0 | h0 <;> subst h0 <;> simp

/-- C09: a code in which every pulse is that of one or the other of two neighbouring altitudes decodes to one of the two. -/
theorem gillham_mixed (k : Nat) (hk : k < 2559) (p : Pulses)
    (hp : ∀ i : Nat, p.toList[i]? = (modeC k).toList[i]? ∨ p.toList[i]? = (modeC (k + 1)).toList[i]?) :
    gillhamToAltitude p.d1 p.d2 p.d4 p.a1 p.a2 p.a4 p.b1 p.b2 p.b4 p.c1 p.c2 p.c4 = .ok (100 * (k : Int) - 1200) ∨
    gillhamToAltitude p.d1 p.d2 p.d4 p.a1 p.a2 p.a4 p.b1 p.b2 p.b4 p.c1 p.c2 p.c4 = .ok (100 * ((k : Int) + 1) - 1200) := by
  have hd := modeC_distance k hk
  unfold Pulses.distance at hd
  have inj : ∀ q : Pulses, p.toList = q.toList → p = q := by
    intro q h
    cases p; cases q
    simp only [Pulses.toList, List.cons.injEq, and_true] at h
    simp only [Pulses.mk.injEq]
    exact h
  rcases mix_of_distance_one (modeC k).toList (modeC (k + 1)).toList p.toList rfl rfl (le_of_eq hd) hp with h | h
  · left; rw [inj _ h]; exact gillham_modeC k (by omega)
  · right; rw [inj _ h]; have := gillham_modeC (k + 1) (by omega); push_cast at this; exact this

/-! ### C10 in frames -/

/-- The altitude report of a message, for the formats that carry one. -/
def ModeSMessage.altitudeReport : ModeSMessage → Option (AltitudeReportMethod × Int)
  | .df0 m => some (m.altitudeReportMethod, m.altitude)
  | .df4 m => some (m.altitudeReportMethod, m.altitude)
  | .df16 m => some (m.altitudeReportMethod, m.altitude)
  | .df20 m => some (m.altitudeReportMethod, m.altitude)
  | _ => none

/-- C10: the reported method and altitude are the meaning of bits 20-32, within -1200..126700 ft. -/
theorem frame_altitude (f : List UInt8) (msg : ModeSMessage) (h : readMessage f = .ok msg)
    (method : AltitudeReportMethod) (a : Int) (ha : msg.altitudeReport = some (method, a)) :
    AltitudeMeaning (bits f 20 32) method a ∧ -1200 ≤ a ∧ a ≤ 126700 := by
  have key : AltitudeMeaning (bits f 20 32) method a := by
    cases msg <;> simp only [ModeSMessage.altitudeReport, Option.some.injEq, Prod.mk.injEq, reduceCtorEq] at ha <;>
      obtain ⟨rfl, rfl⟩ := ha
    · exact (df0_fields f _ h).2.2.2.2.2.2.1
    · exact (df4_fields f _ h).2.2.2.2.2.2.1
    · exact (df16_fields f _ h).2.2.2.2.2.2.1
    · exact (df20_fields f _ h).2.2.2.2.2.2.2.1
  refine ⟨key, ?_⟩
  cases method with
  | notAvailable => obtain ⟨_, h⟩ := key; omega
  | metricUnits => obtain ⟨_, h⟩ := key; omega
  | feet25 => obtain ⟨_, _, h⟩ := key; unfold n25AC13 at h; omega
  | feet100 => obtain ⟨_, _, k, _, _, h⟩ := key; omega

/-- C10: which messages carry an altitude. -/
theorem frame_altitude_formats (f : List UInt8) (msg : ModeSMessage) (h : readMessage f = .ok msg) :
    msg.altitudeReport.isSome = true ↔ bits f 1 5 ∈ altitudeFormats := by
  have ht := readMessage_type f msg h
  have hlt : bits f 1 5 < 32 := by unfold bits; exact Nat.mod_lt _ (by decide)
  generalize bits f 1 5 = d at *
  cases msg <;> simp [ModeSMessage.getDownLinkFormat, ModeSMessage.altitudeReport, altitudeFormats] at ht ⊢ <;>
    (try split at ht) <;> omega

example : ∃ m, readMessage [0x20, 0, 0x16, 0xB8, 1, 2, 3] = .ok m ∧ m.altitudeReport = some (.feet25, 35600) :=
  ⟨_, rfl, by decide⟩

/-! ### C11 -/

/-- The identity of a message, for the formats that carry one. -/
def ModeSMessage.identityReport : ModeSMessage → Option (List Char)
  | .df5 m => some m.identity
  | .df21 m => some m.identity
  | _ => none

/-- C11: the identity is the four octal digits of the pulses in bits 20-32. -/
theorem frame_identity (f : List UInt8) (msg : ModeSMessage) (h : readMessage f = .ok msg) (i : List Char)
    (hi : msg.identityReport = some i) : i = digitsText (squawk (bits f 20 32)) := by
  cases msg <;> simp only [ModeSMessage.identityReport, Option.some.injEq, reduceCtorEq] at hi <;> subst hi
  · exact (df5_fields f _ h).2.2.2.2.2.2.1
  · exact (df21_fields f _ h).2.2.2.2.2.2.2.1

theorem squawk_lt (c : Nat) : ∀ x ∈ squawk c, x < 8 := by
  intro x hx
  simp only [squawk, List.mem_cons, List.not_mem_nil, or_false] at hx
  rcases hx with rfl | rfl | rfl | rfl <;> omega

theorem digit_inj : ∀ a < 8, ∀ b < 8, Char.ofNat (48 + a) = Char.ofNat (48 + b) → a = b := by decide

theorem digitsText_inj (l r : List Nat) (hl : ∀ x ∈ l, x < 8) (hr : ∀ x ∈ r, x < 8)
    (h : digitsText l = digitsText r) : l = r := by
  induction l generalizing r with
  | nil => cases r with
    | nil => rfl
    | cons => simp [digitsText] at h
  | cons a l ih => cases r with
    | nil => simp [digitsText] at h
    | cons b r =>
      simp only [digitsText, List.map_cons, List.cons.injEq] at h
      rw [digit_inj a (hl a (by simp)) b (hr b (by simp)) h.1,
        ih r (fun x hx => hl x (by simp [hx])) (fun x hx => hr x (by simp [hx])) h.2]

/-- The code of four digits given as a list. -/
def squawkCodeOf : List Nat → Option Nat
  | [a, b, c, d] => some (squawkCode a b c d)
  | _ => none

/-- Over the whole domain: the digits determine the twelve pulses. -/
theorem squawk_pulses_table : ∀ i < 128, ∀ j < 64,
    squawkCodeOf (squawk (64 * i + j)) = some ((64 * i + j) / 128 * 128 + (64 * i + j) % 64) := by
  decide +kernel

theorem squawk_pulses (c : Nat) (hc : c < 8192) : squawkCodeOf (squawk c) = some (c / 128 * 128 + c % 64) := by
  have := squawk_pulses_table (c / 64) (by omega) (c % 64) (by omega)
  rwa [show 64 * (c / 64) + c % 64 = c by omega] at this

/-- C11: two frames reporting the same identity have the same twelve identity pulses (bit 26 is not one of them). -/
theorem frame_identity_injective (f g : List UInt8) (m m' : ModeSMessage) (hf : readMessage f = .ok m)
    (hg : readMessage g = .ok m') (i : List Char) (h1 : m.identityReport = some i) (h2 : m'.identityReport = some i) :
    bits f 20 32 / 128 = bits g 20 32 / 128 ∧ bits f 20 32 % 64 = bits g 20 32 % 64 := by
  have e1 := frame_identity f m hf i h1
  have e2 := frame_identity g m' hg i h2
  rw [e1] at e2
  have e := digitsText_inj _ _ (squawk_lt _) (squawk_lt _) e2
  have l1 : bits f 20 32 < 8192 := by unfold bits; exact Nat.mod_lt _ (by decide)
  have l2 : bits g 20 32 < 8192 := by unfold bits; exact Nat.mod_lt _ (by decide)
  generalize bits f 20 32 = c at *
  generalize bits g 20 32 = c' at *
  have k1 := squawk_pulses c l1
  have k2 := squawk_pulses c' l2
  rw [e] at k1
  have : c / 128 * 128 + c % 64 = c' / 128 * 128 + c' % 64 := by
    injection k1.symm.trans k2
  omega

/-- C11: the emergency codes are recognised for exactly their squawks. -/
theorem frame_identity_special (f : List UInt8) (msg : ModeSMessage) (h : readMessage f = .ok msg) (i : List Char)
    (hi : msg.identityReport = some i) :
    (isSpecialEmergency i = true ↔ squawk (bits f 20 32) = [7, 7, 0, 0]) ∧
    (isSpecialRadiocommunicationFailure i = true ↔ squawk (bits f 20 32) = [7, 6, 0, 0]) ∧
    (isSpecialUnlawfulInterference i = true ↔ squawk (bits f 20 32) = [7, 5, 0, 0]) ∧
    (isSpecialInstructionNotReceived i = true ↔ squawk (bits f 20 32) = [2, 0, 0, 0]) := by
  rw [frame_identity f msg h i hi]
  have key : ∀ l : List Nat, (∀ x ∈ l, x < 8) →
      ((digitsText (squawk (bits f 20 32)) == digitsText l) = true ↔ squawk (bits f 20 32) = l) := by
    intro l hl
    rw [beq_iff_eq]
    exact ⟨digitsText_inj _ _ (squawk_lt _) hl, fun e => by rw [e]⟩
  exact ⟨key [7, 7, 0, 0] (by decide), key [7, 6, 0, 0] (by decide), key [7, 5, 0, 0] (by decide),
    key [2, 0, 0, 0] (by decide)⟩

example : ∃ m, readMessage (toBytes 7 (5 * 2 ^ 51 + squawkCode 7 7 0 0 * 2 ^ 24)) = .ok m ∧
    m.identityReport = some ['7', '7', '0', '0'] := ⟨_, rfl, by decide⟩

end Modes
