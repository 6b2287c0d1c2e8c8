import Verif.Model.FileIO
import Verif.Model.NavWriter
import Verif.Props.DataManager
import Verif.Lemmas.Real
import Verif.Spec.Rotation
import Mathlib.Tactic.FinCases
import Mathlib.Tactic.Ring
/-! The file readers and the formats of the result writers. -/
namespace Verif.Props
open Verif
section anyScalar
variable {α : Type} [Add α] [Sub α] [Mul α] [Neg α] [Div α] [Zero α] [One α] [Fl α]

/-! ## Binary IMU files -/

/-- The record delivered for 56 bytes. -/
def delivered (dec : List Byte → α) (rfu : Bool) (bytes : List Byte) : ImuRec α := (recOf dec bytes).toFrame rfu

theorem readAll_false (dec : List Byte → α) (rfu : Bool) (junk : Nat → List Byte) (fuel k : Nat) (rest : List Byte) :
    BinReader.readAll dec rfu junk (fuel + 1) k ⟨rest, false⟩ = some [] := rfl

theorem readAll_step (dec : List Byte → α) (rfu : Bool) (junk : Nat → List Byte) (fuel k : Nat) (rest : List Byte) :
    BinReader.readAll dec rfu junk (fuel + 1) k ⟨rest, true⟩ =
      (BinReader.readAll dec rfu junk fuel (k + 1) ⟨rest.drop 56, !decide (rest.length < 56)⟩).map
        (delivered dec rfu (rest.take 56 ++ (junk k).drop (rest.take 56).length) :: ·) := rfl

/-- C61: whatever the bytes of the file, reading ends, after delivering one record for every 56 bytes, decoded
from them, and then one more, decoded from the bytes that are left over followed by uninitialised memory. -/
theorem C61_binary_file (dec : List Byte → α) (rfu : Bool) (junk : Nat → List Byte) (hj : ∀ k, (junk k).length = 56)
    (bytes : List Byte) (fuel : Nat) (hf : bytes.length / 56 + 2 ≤ fuel) :
    BinReader.readAll dec rfu junk fuel 0 ⟨bytes, true⟩ = some
      (((List.range (bytes.length / 56)).map fun i => delivered dec rfu ((bytes.drop (56 * i)).take 56)) ++
        [delivered dec rfu (bytes.drop (56 * (bytes.length / 56)) ++
          (junk (bytes.length / 56)).drop (bytes.length % 56))]) := by
  have key : ∀ (n : Nat) (bytes : List Byte) (k fuel : Nat), bytes.length / 56 = n → n + 2 ≤ fuel →
      BinReader.readAll dec rfu junk fuel k ⟨bytes, true⟩ = some
        (((List.range n).map fun i => delivered dec rfu ((bytes.drop (56 * i)).take 56)) ++
          [delivered dec rfu (bytes.drop (56 * n) ++ (junk (k + n)).drop (bytes.length % 56))]) := by
    intro n
    induction n with
    | zero =>
      intro bytes k fuel h hf
      obtain ⟨fuel, rfl⟩ : ∃ m, fuel = m + 2 := ⟨fuel - 2, by omega⟩
      have hl : bytes.length < 56 := by omega
      rw [readAll_step]
      rw [decide_eq_true hl]
      show Option.map _ (BinReader.readAll dec rfu junk (fuel + 1) (k + 1) ⟨_, false⟩) = _
      rw [readAll_false]
      have ht : bytes.take 56 = bytes := List.take_of_length_le (by omega)
      have hm : bytes.length % 56 = bytes.length := Nat.mod_eq_of_lt hl
      simp [ht, hm]
    | succ n ih =>
      intro bytes k fuel h hf
      obtain ⟨fuel, rfl⟩ : ∃ m, fuel = m + 1 := ⟨fuel - 1, by omega⟩
      have hl : ¬ bytes.length < 56 := by omega
      have hd : (bytes.drop 56).length = bytes.length - 56 := List.length_drop
      rw [readAll_step, decide_eq_false hl]
      show Option.map _ (BinReader.readAll dec rfu junk fuel (k + 1) ⟨_, true⟩) = _
      rw [ih (bytes.drop 56) (k + 1) fuel (by omega) (by omega)]
      have ht : (bytes.take 56).length = 56 := by rw [List.length_take]; omega
      rw [List.range_succ_eq_map, List.map_cons, List.map_map]
      simp only [Option.map_some, List.cons_append, Option.some.injEq, List.cons.injEq]
      refine ⟨?_, ?_⟩
      · rw [ht, List.drop_of_length_le (by rw [hj]), List.append_nil]; simp
      · congr 1
        · apply List.map_congr_left
          intro i _
          simp only [Function.comp, Nat.succ_eq_add_one, List.drop_drop]
          congr 3
          omega
        · rw [List.drop_drop, hd, show k + 1 + n = k + (n + 1) by omega, show 56 + 56 * n = 56 * (n + 1) by omega,
            show (bytes.length - 56) % 56 = bytes.length % 56 by omega]
  have := key (bytes.length / 56) bytes 0 fuel rfl hf
  simpa using this

/-- C61 for a file made of the samples a user recorded (`enc` writes a number as eight bytes, `dec` reads it
back): all samples are delivered unchanged and in order, and then one record nobody recorded, made of
uninitialised memory. -/
theorem C61_extra_record (enc : α → List Byte) (dec : List Byte → α) (hlen : ∀ x, (enc x).length = 8)
    (hdec : ∀ x, dec (enc x) = x) (junk : Nat → List Byte) (hj : ∀ k, (junk k).length = 56) (samples : List (ImuRec α))
    (fuel : Nat) (hf : samples.length + 2 ≤ fuel) :
    let bytes := samples.flatMap fun r => enc r.time ++ enc (r.gyro 0) ++ enc (r.gyro 1) ++ enc (r.gyro 2) ++
      enc (r.acce 0) ++ enc (r.acce 1) ++ enc (r.acce 2)
    BinReader.readAll dec false junk fuel 0 ⟨bytes, true⟩ = some (samples ++ [recOf dec (junk samples.length)]) := by
  intro bytes
  let e : ImuRec α → List Byte := fun r => enc r.time ++ enc (r.gyro 0) ++ enc (r.gyro 1) ++ enc (r.gyro 2) ++
      enc (r.acce 0) ++ enc (r.acce 1) ++ enc (r.acce 2)
  have he : ∀ r, (e r).length = 56 := by intro r; simp [e, hlen]
  have hb : ∀ ss : List (ImuRec α), (ss.flatMap e).length = 56 * ss.length := by
    intro ss; induction ss with
    | nil => rfl
    | cons r rs ih => rw [List.flatMap_cons, List.length_append, he, ih, List.length_cons]; omega
  have hbl : bytes.length = 56 * samples.length := hb samples
  have hq : bytes.length / 56 = samples.length := by omega
  rw [C61_binary_file dec false junk hj bytes fuel (by omega), hq]
  congr 2
  · have hr : ∀ r rest, delivered dec false ((e r ++ rest).take 56) = r := by
      intro r rest
      rw [List.take_left' (he r)]
      have hw : ∀ (a b c : List Byte), b.length = 8 → ∀ n, a.length = n → ((a ++ (b ++ c)).drop n).take 8 = b := by
        intro a b c h n hn
        rw [List.drop_left' hn, List.take_left' h]
      unfold delivered recOf ImuRec.toFrame
      simp only [Bool.false_eq_true, if_false]
      have w0 : word (e r) 0 = enc r.time := by
        unfold word; simp only [e, List.append_assoc]; simpa using hw [] (enc r.time) _ (hlen _) 0 rfl
      have wk : ∀ (k : Nat) (a b c : List Byte), e r = a ++ (b ++ c) → b.length = 8 → a.length = 8 * k → word (e r) k = b := by
        intro k a b c h1 h2 h3
        unfold word
        rw [h1]; exact hw a b c h2 _ h3
      cases r with
      | mk time acce gyro =>
        congr 1
        · rw [w0, hdec]
        · funext i
          fin_cases i
          · show dec (word _ 4) = _
            rw [wk 4 (enc time ++ enc (gyro 0) ++ enc (gyro 1) ++ enc (gyro 2)) (enc (acce 0)) (enc (acce 1) ++ enc (acce 2))
              (by simp [e]) (hlen _) (by simp [hlen]), hdec]; rfl
          · show dec (word _ 5) = _
            rw [wk 5 (enc time ++ enc (gyro 0) ++ enc (gyro 1) ++ enc (gyro 2) ++ enc (acce 0)) (enc (acce 1)) (enc (acce 2))
              (by simp [e]) (hlen _) (by simp [hlen]), hdec]; rfl
          · show dec (word _ 6) = _
            rw [wk 6 (enc time ++ enc (gyro 0) ++ enc (gyro 1) ++ enc (gyro 2) ++ enc (acce 0) ++ enc (acce 1)) (enc (acce 2)) []
              (by simp [e]) (hlen _) (by simp [hlen]), hdec]; rfl
        · funext i
          fin_cases i
          · show dec (word _ 1) = _
            rw [wk 1 (enc time) (enc (gyro 0)) (enc (gyro 1) ++ enc (gyro 2) ++ enc (acce 0) ++ enc (acce 1) ++ enc (acce 2))
              (by simp [e]) (hlen _) (by simp [hlen]), hdec]; rfl
          · show dec (word _ 2) = _
            rw [wk 2 (enc time ++ enc (gyro 0)) (enc (gyro 1)) (enc (gyro 2) ++ enc (acce 0) ++ enc (acce 1) ++ enc (acce 2))
              (by simp [e]) (hlen _) (by simp [hlen]), hdec]; rfl
          · show dec (word _ 3) = _
            rw [wk 3 (enc time ++ enc (gyro 0) ++ enc (gyro 1)) (enc (gyro 2)) (enc (acce 0) ++ enc (acce 1) ++ enc (acce 2))
              (by simp [e]) (hlen _) (by simp [hlen]), hdec]; rfl
    apply List.ext_getElem
    · simp
    · intro i h1 h2
      simp only [List.getElem_map, List.getElem_range]
      have hsplit : ∀ (ss : List (ImuRec α)) (i : Nat) (h : i < ss.length), ∃ rest, (ss.flatMap e).drop (56 * i) = e ss[i] ++ rest := by
        intro ss
        induction ss with
        | nil => intro i h; simp at h
        | cons r rs ih =>
          intro i h
          cases i with
          | zero => exact ⟨rs.flatMap e, by simp⟩
          | succ i =>
            obtain ⟨rest, hr⟩ := ih i (by simpa using h)
            refine ⟨rest, ?_⟩
            rw [List.flatMap_cons, show 56 * (i + 1) = 56 + 56 * i by omega, ← List.drop_drop, List.drop_left' (he r), hr]
            rfl
      obtain ⟨rest, hrest⟩ := hsplit samples i h2
      have : bytes.drop (56 * i) = e samples[i] ++ rest := hrest
      rw [this, hr]
  · rw [List.drop_of_length_le (by omega)]
    have hm : bytes.length % 56 = 0 := by omega
    rw [hm]
    simp [delivered, ImuRec.toFrame]

/-! ## Text IMU files -/

/-- The tokens of a sample: time, three gyroscope and three accelerometer values. -/
def tokens (r : ImuRec α) : List (Tok α) :=
  [.num r.time, .num (r.gyro 0), .num (r.gyro 1), .num (r.gyro 2), .num (r.acce 0), .num (r.acce 1), .num (r.acce 2)]

/-- The seven extractions of a sample, one after the other. -/
theorem imu_seq (rfu : Bool) (t0 : α) {s s1 s2 s3 s4 s5 s6 s7 : TextIn α} {t g0 g1 g2 a0 a1 a2 : α}
    (h1 : s.num t0 = (t, s1)) (h2 : s1.num 0 = (g0, s2)) (h3 : s2.num 0 = (g1, s3)) (h4 : s3.num 0 = (g2, s4))
    (h5 : s4.num 0 = (a0, s5)) (h6 : s5.num 0 = (a1, s6)) (h7 : s6.num 0 = (a2, s7)) :
    s.imu rfu t0 = (({ time := t, gyro := v3 g0 g1 g2, acce := v3 a0 a1 a2 } : ImuRec α).toFrame rfu, s7) := by
  unfold TextIn.imu
  rw [h1]; dsimp only
  rw [h2]; dsimp only
  rw [h3]; dsimp only
  rw [h4]; dsimp only
  rw [h5]; dsimp only
  rw [h6]; dsimp only
  rw [h7]

theorem imu_end_state (rfu : Bool) (t0 : α) (s : TextIn α) :
    (s.imu rfu t0).2 = (((((((s.num t0).2.num 0).2.num 0).2.num 0).2.num 0).2.num 0).2.num 0).2 := by
  rw [imu_seq rfu t0 (s := s) (Prod.eta _).symm (Prod.eta _).symm (Prod.eta _).symm (Prod.eta _).symm (Prod.eta _).symm
    (Prod.eta _).symm (Prod.eta _).symm]
theorem num_cons (x old : α) (t : Tok α) (ts : List (Tok α)) (ws : Bool) :
    TextIn.num ⟨.num x :: t :: ts, ws, false, false⟩ old = (x, ⟨t :: ts, ws, false, false⟩) := rfl
theorem num_last (x old : α) (ts : List (Tok α)) (ws : Bool) :
    TextIn.num ⟨.num x :: ts, ws, false, false⟩ old = (x, ⟨ts, ws, ts.isEmpty && !ws, false⟩) := rfl

theorem imu_tokens (r : ImuRec α) (ts : List (Tok α)) (ws : Bool) (t0 : α) :
    TextIn.imu false t0 ⟨tokens r ++ ts, ws, false, false⟩ = (r, ⟨ts, ws, ts.isEmpty && !ws, false⟩) := by
  have hv : ∀ v : V3 α, v3 (v 0) (v 1) (v 2) = v := by
    intro v; funext i; fin_cases i <;> rfl
  have := imu_seq false t0 (num_cons r.time t0 (.num (r.gyro 0)) (.num (r.gyro 1) :: .num (r.gyro 2) :: .num (r.acce 0) :: .num (r.acce 1) ::
    .num (r.acce 2) :: ts) ws) (num_cons _ _ _ _ _) (num_cons _ _ _ _ _) (num_cons _ _ _ _ _) (num_cons _ _ _ _ _)
    (num_cons _ _ _ _ _) (num_last _ _ _ _)
  refine this.trans ?_
  unfold ImuRec.toFrame
  rw [if_neg (by decide), hv, hv]

theorem imu_end (ws : Bool) (t0 : α) :
    TextIn.imu false t0 ⟨[], ws, false, false⟩ = (⟨t0, v3 0 0 0, v3 0 0 0⟩, ⟨[], ws, true, true⟩) :=
  imu_seq false t0 (s1 := ⟨[], ws, true, true⟩) (s2 := ⟨[], ws, true, true⟩) (s3 := ⟨[], ws, true, true⟩)
    (s4 := ⟨[], ws, true, true⟩) (s5 := ⟨[], ws, true, true⟩) (s6 := ⟨[], ws, true, true⟩) rfl rfl rfl rfl rfl rfl rfl

theorem readAll_succ (rfu : Bool) (t0 : Nat → α) (fuel k : Nat) (s : TextIn α) :
    TextIn.readAll rfu t0 (fuel + 1) k s =
      if (s.imu rfu (t0 k)).2.eof = true then some [(s.imu rfu (t0 k)).1]
      else (TextIn.readAll rfu t0 fuel (k + 1) (s.imu rfu (t0 k)).2).map ((s.imu rfu (t0 k)).1 :: ·) := by
  rw [TextIn.readAll]

/-- C61 for text files. A file of samples that does not end in white space is delivered exactly; a file that
ends in a newline, as files do, gets one more record: all zero, with an uninitialised time. -/
theorem C61_text_file (t0 : Nat → α) (samples : List (ImuRec α)) (hne : samples ≠ []) (ws : Bool) (fuel : Nat)
    (hf : samples.length + 1 ≤ fuel) :
    TextIn.readAll false t0 fuel 0 ⟨samples.flatMap tokens, ws, false, false⟩ =
      some (samples ++ if ws then [⟨t0 samples.length, v3 0 0 0, v3 0 0 0⟩] else []) := by
  have key : ∀ (samples : List (ImuRec α)) (k fuel : Nat), samples.length + 1 ≤ fuel → (samples ≠ [] ∨ ws = true) →
      TextIn.readAll false t0 fuel k ⟨samples.flatMap tokens, ws, false, false⟩ =
        some (samples ++ if ws then [⟨t0 (k + samples.length), v3 0 0 0, v3 0 0 0⟩] else []) := by
    intro samples
    induction samples with
    | nil =>
      intro k fuel hf hh
      obtain ⟨fuel, rfl⟩ : ∃ m, fuel = m + 1 := ⟨fuel - 1, by simp at hf; omega⟩
      have hws : ws = true := by simpa using hh
      simp only [List.flatMap_nil, TextIn.readAll, imu_end, if_true, hws, List.nil_append, List.length_nil, Nat.add_zero]
    | cons r rs ih =>
      intro k fuel hf _
      obtain ⟨fuel, rfl⟩ : ∃ m, fuel = m + 1 := ⟨fuel - 1, by simp at hf; omega⟩
      rw [List.flatMap_cons, TextIn.readAll, imu_tokens]
      simp only
      have hemp : (rs.flatMap (tokens (α := α))).isEmpty = rs.isEmpty := by
        cases rs with
        | nil => rfl
        | cons a as => simp [tokens]
      by_cases hlast : rs = [] ∧ ws = false
      · obtain ⟨rfl, rfl⟩ := hlast
        simp
      · have h1 : ((rs.flatMap (tokens (α := α))).isEmpty && !ws) = false := by
          rw [hemp]
          cases rs <;> cases ws <;> simp_all
        rw [h1]
        simp only [Bool.false_eq_true, if_false]
        rw [ih (k + 1) fuel (by simp at hf; omega) (by
          by_contra hc
          push Not at hc
          exact hlast ⟨hc.1, by simpa using hc.2⟩)]
        simp only [Option.map_some, List.cons_append, List.length_cons]
        rw [show k + 1 + rs.length = k + (rs.length + 1) by omega]
  have := key samples 0 fuel hf (Or.inl hne)
  simpa using this

/-- C75, the violation: a text file with something in it that is not a number is read forever (and the records
delivered meanwhile fill the memory), wherever in the file it is and whatever surrounds it. -/
theorem C75_bad_token_hangs (rfu : Bool) (t0 : Nat → α) (toks : List (Tok α)) (ws : Bool) (h : Tok.bad ∈ toks) :
    ∀ fuel, TextIn.readAll rfu t0 fuel 0 ⟨toks, ws, false, false⟩ = none := by
  let stuck : TextIn α → Prop := fun s => s.eof = false ∧ (s.fail = true ∨ Tok.bad ∈ s.toks)
  have hnum : ∀ (s : TextIn α) (old : α), stuck s → stuck (s.num old).2 := by
    rintro ⟨toks, ws, eof, fail⟩ old ⟨h1, h2⟩
    simp only at h1 h2
    subst h1
    unfold TextIn.num
    by_cases hfail : fail = true
    · subst hfail; exact ⟨rfl, Or.inl rfl⟩
    · have hb : Tok.bad ∈ toks := by simpa [hfail] using h2
      simp only [Bool.not_eq_true] at hfail
      subst hfail
      cases toks with
      | nil => simp at hb
      | cons t ts =>
        cases t with
        | bad => exact ⟨rfl, Or.inl rfl⟩
        | num x =>
          have hb' : Tok.bad ∈ ts := by simpa using hb
          refine ⟨?_, Or.inr hb'⟩
          cases ts with
          | nil => simp at hb'
          | cons a as => rfl
  have himu : ∀ (s : TextIn α) (t : α), stuck s → stuck (s.imu rfu t).2 := by
    intro s t hs
    rw [imu_end_state]
    exact hnum _ _ (hnum _ _ (hnum _ _ (hnum _ _ (hnum _ _ (hnum _ _ (hnum _ _ hs))))))
  have key : ∀ fuel k (s : TextIn α), stuck s → TextIn.readAll rfu t0 fuel k s = none := by
    intro fuel
    induction fuel with
    | zero => intro k s _; rfl
    | succ n ih =>
      intro k s hs
      have h' := himu s (t0 k) hs
      have e := readAll_succ rfu t0 n k s
      rw [if_neg (by rw [h'.1]; decide), ih (k + 1) _ h'] at e
      exact e
  exact fun fuel => key fuel 0 _ ⟨rfl, Or.inr h⟩

/-- C75, the record delivered for a line that begins with something that is not a number (a header, say): instant zero, no rotation, no
force, whatever the memory held; the reader does not move on, and every later record has an instant nobody wrote. -/
theorem C75_record_of_a_header (t0 t1 : α) (ts : List (Tok α)) (ws : Bool) :
    (TextIn.imu false t0 ⟨.bad :: ts, ws, false, false⟩).1 = { time := 0, gyro := v3 0 0 0, acce := v3 0 0 0 } ∧
      (TextIn.imu false t1 (TextIn.imu false t0 ⟨.bad :: ts, ws, false, false⟩).2).1 = { time := t1, gyro := v3 0 0 0, acce := v3 0 0 0 } := by
  have hf : ∀ old : α, TextIn.num ⟨.bad :: ts, ws, false, true⟩ old = (old, ⟨.bad :: ts, ws, false, true⟩) := fun _ => rfl
  have h0 : TextIn.num ⟨.bad :: ts, ws, false, false⟩ t0 = ((0 : α), ⟨.bad :: ts, ws, false, true⟩) := rfl
  have e0 := imu_seq false t0 h0 (hf 0) (hf 0) (hf 0) (hf 0) (hf 0) (hf 0)
  have e1 := imu_seq false t1 (hf t1) (hf 0) (hf 0) (hf 0) (hf 0) (hf 0) (hf 0)
  rw [e0]
  refine ⟨rfl, ?_⟩
  rw [e1]
  rfl

/-- C75: a text file of numbers is always read to its end (however many). -/
theorem C75_numbers_end_partial (rfu : Bool) (t0 : Nat → α) (toks : List (Tok α)) (ws : Bool) (h : Tok.bad ∉ toks) :
    ∃ fuel rs, TextIn.readAll rfu t0 fuel 0 ⟨toks, ws, false, false⟩ = some rs := by
  let fine : TextIn α → Prop := fun s => Tok.bad ∉ s.toks ∧ (s.fail = true → s.eof = true)
  have hnum : ∀ (s : TextIn α) (old : α), fine s → fine (s.num old).2 ∧
      ((s.num old).2.eof = true ∨ (s.num old).2.toks.length + 1 = s.toks.length) ∧ (s.eof = true → (s.num old).2.eof = true) := by
    rintro ⟨toks, ws, eof, fail⟩ old ⟨h1, h2⟩
    simp only at h1 h2
    unfold TextIn.num
    cases eof with
    | true => exact ⟨⟨h1, fun _ => rfl⟩, Or.inl rfl, fun _ => rfl⟩
    | false =>
      cases fail with
      | true => simp at h2
      | false =>
        cases toks with
        | nil => exact ⟨⟨h1, fun _ => rfl⟩, Or.inl rfl, fun _ => rfl⟩
        | cons t ts =>
          cases t with
          | bad => simp at h1
          | num x => exact ⟨⟨fun h => h1 (List.mem_cons_of_mem _ h), by simp⟩, Or.inr rfl, by simp⟩
  have himu : ∀ (s : TextIn α) (t : α), fine s → fine (s.imu rfu t).2 ∧
      ((s.imu rfu t).2.eof = true ∨ (s.imu rfu t).2.toks.length + 7 = s.toks.length) := by
    intro s t hs
    have two : ∀ (s0 s : TextIn α) (k : Nat) (old : α), fine s → (s.eof = true ∨ s.toks.length + k = s0.toks.length) →
        fine (s.num old).2 ∧ ((s.num old).2.eof = true ∨ (s.num old).2.toks.length + (k + 1) = s0.toks.length) := by
      intro s0 s k old hs hk
      obtain ⟨a, b, c⟩ := hnum s old hs
      refine ⟨a, ?_⟩
      rcases hk with hk | hk
      · exact Or.inl (c hk)
      · rcases b with b | b
        · exact Or.inl b
        · exact Or.inr (by omega)
    rw [imu_end_state]
    have h1 := two s s 0 t hs (Or.inr rfl)
    have h2 := two s _ 1 0 h1.1 h1.2
    have h3 := two s _ 2 0 h2.1 h2.2
    have h4 := two s _ 3 0 h3.1 h3.2
    have h5 := two s _ 4 0 h4.1 h4.2
    have h6 := two s _ 5 0 h5.1 h5.2
    exact two s _ 6 0 h6.1 h6.2
  have key : ∀ n k (s : TextIn α), fine s → s.toks.length ≤ n → ∃ rs, TextIn.readAll rfu t0 (n + 1) k s = some rs := by
    intro n
    induction n with
    | zero =>
      intro k s hs hn
      obtain ⟨-, h2⟩ := himu s (t0 k) hs
      have e := readAll_succ rfu t0 0 k s
      generalize s.imu rfu (t0 k) = r at e h2
      have he : r.2.eof = true := by
        rcases h2 with h | h
        · exact h
        · omega
      rw [if_pos he] at e
      exact ⟨_, e⟩
    | succ n ih =>
      intro k s hs hn
      obtain ⟨h1, h2⟩ := himu s (t0 k) hs
      have e := readAll_succ rfu t0 (n + 1) k s
      generalize s.imu rfu (t0 k) = r at e h1 h2
      by_cases he : r.2.eof = true
      · rw [if_pos he] at e; exact ⟨_, e⟩
      · have hlen : r.2.toks.length ≤ n := by
          rcases h2 with h | h
          · exact absurd h he
          · omega
        obtain ⟨rs, hrs⟩ := ih (k + 1) _ h1 hlen
        rw [if_neg he, hrs] at e
        exact ⟨_, e⟩
  obtain ⟨rs, hrs⟩ := key toks.length 0 ⟨toks, ws, false, false⟩ ⟨h, by simp⟩ (le_refl _)
  exact ⟨_, rs, hrs⟩

/-! ## GNSS files -/

/-- C62: the record delivered for a GGA line: time, position and height as in the line; quality 4 and 5 keep
their quality and get 1 mm and 5 mm deviations, quality 1 gets 1 m, quality 2 gets 1 m and becomes "invalid",
every other quality (0 included) becomes "invalid" with the two deviations of the line and a zero third one;
and it is delivered exactly if its time is positive. -/
theorem C62_gga_line (t0 : α) (q0 : BitVec 32) (f : GnssFields α) :
    (Fl.lt 0 f.time = false → gnssLine .gga t0 q0 (.fields f) = .ret none) ∧
    (Fl.lt 0 f.time = true → ∃ r, gnssLine .gga t0 q0 (.fields f) = .ret (some r) ∧
      r.time = f.time ∧ r.lat = f.lat ∧ r.lon = f.lon ∧ r.height = f.height ∧
      (f.mode = 4 → r.mode = 4 ∧ ∀ i, r.posStd i = Fl.f32 (Fl.lit (1 / 1000))) ∧
      (f.mode = 5 → r.mode = 5 ∧ ∀ i, r.posStd i = Fl.f32 (Fl.lit (5 / 1000))) ∧
      (f.mode = 1 → r.mode = 1 ∧ ∀ i, r.posStd i = 1) ∧
      (f.mode = 2 → r.mode = 6 ∧ ∀ i, r.posStd i = 1) ∧
      (f.mode ≠ 4 → f.mode ≠ 5 → f.mode ≠ 1 → f.mode ≠ 2 →
        r.mode = 6 ∧ r.posStd 0 = f.std 0 ∧ r.posStd 1 = f.std 1 ∧ r.posStd 2 = 0)) := by
  constructor
  · intro h
    simp only [gnssLine, h, Bool.false_and, Bool.false_eq_true, if_false]
  · intro h
    by_cases h4 : f.mode = 4#32
    · exact ⟨_, by simp only [gnssLine, ggaMap, h4, h, if_true]; rfl, rfl, rfl, rfl, rfl, by simp [h4], by simp [h4],
        by simp [h4], by simp [h4], by simp [h4]⟩
    by_cases h5 : f.mode = 5#32
    · exact ⟨_, by simp only [gnssLine, ggaMap, h5, h]; rfl, rfl, rfl, rfl, rfl, by simp [h5], by simp [h5],
        by simp [h5], by simp [h5], by simp [h5]⟩
    by_cases h2 : f.mode = 2#32
    · exact ⟨_, by simp only [gnssLine, ggaMap, h2, h]; rfl, rfl, rfl, rfl, rfl, by simp [h2], by simp [h2],
        by simp [h2], by simp [h2], by simp [h2]⟩
    by_cases h1 : f.mode = 1#32
    · exact ⟨_, by simp only [gnssLine, ggaMap, h1, h]; rfl, rfl, rfl, rfl, rfl, by simp [h1], by simp [h1],
        by simp [h1], by simp [h1], by simp [h1]⟩
    · refine ⟨⟨f.time, f.lat, f.lon, f.height, v3 (f.std 0) (f.std 1) 0, 6#32⟩,
        by simp only [gnssLine, ggaMap, h4, h5, h2, h1, h, if_false]; rfl, rfl, rfl, rfl, rfl, fun h => absurd h h4,
        fun h => absurd h h5, fun h => absurd h h1, fun h => absurd h h2, fun _ _ _ _ => ⟨rfl, rfl, rfl, rfl⟩⟩

/-- The record, if any, the reader returns for its `k`-th line. -/
def lineRecord (fmt : GnssFmt) (t0 : Nat → α) (q0 : Nat → BitVec 32) (k : Nat) (l : GnssLine α) : Option (GnssRec α) :=
  match gnssLine fmt (t0 k) (q0 k) l with
  | .ub => none
  | .ret r => r

/-- The records up to the first missing one. -/
def upToNone {β : Type} : List (Option β) → List β
  | some x :: xs => x :: upToNone xs
  | _ => []

theorem gnss_key (fmt : GnssFmt) (hfmt : fmt ≠ .lines10) (t0 : Nat → α) (q0 : Nat → BitVec 32) (nl : Bool) :
    ∀ (lines : List (GnssLine α)) (k fuel : Nat), lines.length + 2 ≤ fuel →
      LineIn.readAll fmt t0 q0 fuel k ⟨lines, nl, true⟩ =
        .recs (upToNone ((lines ++ if nl || lines.isEmpty then [GnssLine.blank] else []).mapIdx
          fun i l => lineRecord fmt t0 q0 (k + i) l)) := by
  have hub : ∀ t q l, gnssLine fmt t q l ≠ (.ub : GnssRead α) := by
    intro t q l h
    cases fmt <;> cases l <;> simp [gnssLine] at h hfmt
  have hstop : ∀ fuel k (ls : List (GnssLine α)), LineIn.readAll fmt t0 q0 fuel k ⟨ls, nl, false⟩ = .recs [] := by
    intro fuel k ls; cases fuel <;> rfl
  intro lines
  induction lines with
  | nil =>
    intro k fuel hf
    obtain ⟨fuel, rfl⟩ : ∃ m, fuel = m + 1 := ⟨fuel - 1, by simp at hf; omega⟩
    unfold LineIn.readAll
    simp only [LineIn.readNext, Bool.not_true, Bool.false_eq_true, if_false, List.isEmpty_nil, Bool.or_true, if_true,
      List.nil_append, List.mapIdx_cons, List.mapIdx_nil, Nat.add_zero, lineRecord]
    rcases hg : gnssLine fmt (t0 k) (q0 k) (GnssLine.blank : GnssLine α) with _ | r
    · exact absurd hg (hub _ _ _)
    · cases r with
      | none => rfl
      | some r => simp only [hstop, upToNone]
  | cons l ls ih =>
    intro k fuel hf
    obtain ⟨fuel, rfl⟩ : ∃ m, fuel = m + 1 := ⟨fuel - 1, by simp at hf; omega⟩
    unfold LineIn.readAll
    simp only [LineIn.readNext, Bool.not_true, Bool.false_eq_true, if_false, List.isEmpty_cons, Bool.or_false,
      List.cons_append, List.mapIdx_cons, Nat.add_zero, lineRecord]
    rcases hg : gnssLine fmt (t0 k) (q0 k) l with _ | r
    · exact absurd hg (hub _ _ _)
    · cases r with
      | none => rfl
      | some r =>
        simp only [upToNone]
        by_cases hlast : ls = [] ∧ nl = false
        · obtain ⟨rfl, rfl⟩ := hlast
          simp only [List.isEmpty_nil, Bool.not_false, Bool.and_true, Bool.not_true, hstop]
          rfl
        · have h1 : (ls.isEmpty && !nl) = false := by cases ls <;> cases nl <;> simp_all
          rw [h1]
          simp only [Bool.not_false]
          rw [ih (k + 1) fuel (by simp at hf; omega)]
          simp only
          congr 3
          have h2 : (nl || ls.isEmpty) = nl := by cases ls <;> cases nl <;> simp_all
          rw [h2]
          congr 2
          funext i l'
          simp only [lineRecord, show k + 1 + i = k + (i + 1) by omega]

/-- C76: what reading a GNSS file delivers, for every supported format: the records of its lines up to the
first line that gives no record, where a file that ends in a newline (or is empty) counts as having one more,
empty, line. -/
theorem C76_gnss_file (fmt : GnssFmt) (hfmt : fmt ≠ .lines10) (t0 : Nat → α) (q0 : Nat → BitVec 32)
    (lines : List (GnssLine α)) (nl : Bool) :
    readGnssFile fmt t0 q0 lines nl =
      .recs (upToNone ((lines ++ if nl || lines.isEmpty then [GnssLine.blank] else []).mapIdx
        fun i l => lineRecord fmt t0 q0 i l)) := by
  have := gnss_key fmt hfmt t0 q0 nl lines 0 (lines.length + 2) (le_refl _)
  simp only [Nat.zero_add] at this
  exact this

theorem mapIdx_eq_of {β γ : Type} (f g : Nat → β → γ) (xs : List β) (h : ∀ i x, x ∈ xs → f i x = g i x) :
    xs.mapIdx f = xs.mapIdx g := by
  apply List.ext_getElem
  · simp
  · intro i h1 h2
    simp only [List.getElem_mapIdx]
    exact h _ _ (List.getElem_mem _)

/-- C76, the violation: one line without a positive time ends the reading: no line after it has any influence on
what is delivered, however many good fixes they hold. -/
theorem C76_bad_line_truncates (fmt : GnssFmt) (hfmt : fmt ≠ .lines10) (t0 : Nat → α) (q0 : Nat → BitVec 32)
    (before after after' : List (GnssLine α)) (f : GnssFields α) (ht : Fl.lt 0 f.time = false) (nl nl' : Bool) :
    readGnssFile fmt t0 q0 (before ++ .fields f :: after) nl = readGnssFile fmt t0 q0 (before ++ .fields f :: after') nl' := by
  have hnone : ∀ k, lineRecord fmt t0 q0 k (.fields f) = none := by
    intro k
    cases fmt <;> simp [lineRecord, gnssLine, ht, GnssRec.fresh] at hfmt ⊢
  have hcut : ∀ (xs ys : List (Option (GnssRec α))), upToNone (xs ++ none :: ys) = upToNone xs := by
    intro xs ys
    induction xs with
    | nil => rfl
    | cons x xs ih => cases x <;> simp [upToNone, ih]
  have hside : ∀ (as : List (GnssLine α)) (b : Bool), readGnssFile fmt t0 q0 (before ++ .fields f :: as) b =
      .recs (upToNone (before.mapIdx fun i l => lineRecord fmt t0 q0 i l)) := by
    intro as b
    rw [C76_gnss_file fmt hfmt, List.append_assoc, List.mapIdx_append, List.cons_append, List.mapIdx_cons, hnone, hcut]
  rw [hside, hside]

/-- C76: without a final newline a file of lines that all give records is delivered completely. -/
theorem C76_complete (fmt : GnssFmt) (hfmt : fmt ≠ .lines10) (t0 : Nat → α) (q0 : Nat → BitVec 32)
    (lines : List (GnssLine α)) (hne : lines ≠ []) (rs : List (GnssRec α))
    (h : lines.mapIdx (fun i l => lineRecord fmt t0 q0 i l) = rs.map some) :
    readGnssFile fmt t0 q0 lines false = .recs rs := by
  rw [C76_gnss_file fmt hfmt]
  have : (false || lines.isEmpty) = false := by cases lines <;> simp_all
  rw [this]
  simp only [Bool.false_eq_true, if_false, List.append_nil, h]
  congr 1
  clear h
  induction rs with
  | nil => rfl
  | cons r rs ih => simp [upToNone, ih]

/-- C76, the violation at the end of the file: with a final newline, a complete seven-column file gets one more
record, all zero, at an uninitialised time, with quality "single point", if that time happens to be positive. -/
theorem C76_extra_fix (t0 : Nat → α) (q0 : Nat → BitVec 32) (fs : List (GnssFields α))
    (ht : ∀ f ∈ fs, Fl.lt 0 f.time = true) (hj : Fl.lt 0 (t0 fs.length) = true) :
    readGnssFile .pos7 t0 q0 (fs.map .fields) true =
      .recs (fs.map (fun f => ⟨f.time, f.lat, f.lon, f.height, f.std, 1#32⟩) ++
        [⟨t0 fs.length, 0, 0, 0, fun _ => 0, 1#32⟩]) := by
  rw [C76_gnss_file .pos7 (by simp)]
  simp only [Bool.true_or, if_true]
  rw [List.mapIdx_append]
  have h1 : (fs.map GnssLine.fields).mapIdx (fun i l => lineRecord .pos7 t0 q0 i l) =
      (fs.map (fun f => (⟨f.time, f.lat, f.lon, f.height, f.std, 1#32⟩ : GnssRec α))).map some := by
    apply List.ext_getElem
    · simp
    · intro i h1 h2
      simp only [List.getElem_mapIdx, List.getElem_map, lineRecord, gnssLine]
      have := ht (fs[i]'(by simpa using h1)) (List.getElem_mem _)
      simp [this]
  rw [h1]
  have h2 : ∀ (rs : List (GnssRec α)) (x : GnssRec α), upToNone (rs.map some ++ [some x]) = rs ++ [x] := by
    intro rs x; induction rs with
    | nil => rfl
    | cons r rs ih => simp [upToNone, ih]
  have h3 : [GnssLine.blank].mapIdx (fun i (l : GnssLine α) => lineRecord .pos7 t0 q0 (i + (fs.map GnssLine.fields).length) l) =
      [some ⟨t0 fs.length, 0, 0, 0, fun _ => 0, 1#32⟩] := by
    simp [lineRecord, gnssLine, GnssRec.fresh, hj]
  rw [h3, h2]

/-- C76, the violation for the ten-column format: reading any file at all dereferences a null pointer. -/
theorem C76_ten_columns_is_ub (t0 : Nat → α) (q0 : Nat → BitVec 32) (lines : List (GnssLine α)) (nl : Bool) :
    readGnssFile .lines10 t0 q0 lines nl = .ub := by
  unfold readGnssFile LineIn.readAll
  cases lines <;> rfl

/-! ## Result formats -/

/-- C77, the violation: asked for text, the writer thread writes binary records of doubles; with the format
values that exist it never writes text. -/
theorem C77_ascii_is_binary : navWriterKind NavAscii = .doubles ∧
    ∀ fmt, (fmt = NavBinary ∨ fmt = NavAscii ∨ fmt = NavDoubleMatrix) → navWriterKind fmt ≠ .text := by
  refine ⟨rfl, ?_⟩
  rintro fmt (rfl | rfl | rfl) h <;> cases h

/-- C77, the part that holds: the writer used in post-processing writes text for `NavAscii` and the raw structure
for `NavBinary`; so does the thread for `NavBinary`. -/
theorem C77_pva_writer_partial : pvaWriterKind NavAscii = .text ∧ pvaWriterKind NavBinary = .raw ∧
    navWriterKind NavBinary = .raw := ⟨rfl, rfl, rfl⟩
end anyScalar

section real
/-! ## Frame conversion -/

/-- The dot product. -/
def dot (u v : V3 ℝ) : ℝ := u 0 * v 0 + u 1 * v 1 + u 2 * v 2
/-- The cross product. -/
def crossP (u v : V3 ℝ) : V3 ℝ := v3 (u 1 * v 2 - u 2 * v 1) (u 2 * v 0 - u 0 * v 2) (u 0 * v 1 - u 1 * v 0)

/-- C60: the conversion right-front-up to front-right-down keeps lengths, angles and handedness (dot and cross
products), maps the three axes to where they belong, and doing it twice is doing nothing. -/
theorem C60_frame_conversion :
    (∀ u v : V3 ℝ, dot (rfuToFrd u) (rfuToFrd v) = dot u v) ∧
    (∀ u v : V3 ℝ, crossP (rfuToFrd u) (rfuToFrd v) = rfuToFrd (crossP u v)) ∧
    (∀ v : V3 ℝ, rfuToFrd (rfuToFrd v) = v) ∧
    (∀ right front up : ℝ, rfuToFrd (v3 right front up) = v3 front right (-up)) := by
  have v0 : ∀ a b c : ℝ, (v3 a b c) 0 = a := fun _ _ _ => rfl
  have v1 : ∀ a b c : ℝ, (v3 a b c) 1 = b := fun _ _ _ => rfl
  have v2 : ∀ a b c : ℝ, (v3 a b c) 2 = c := fun _ _ _ => rfl
  refine ⟨?_, ?_, ?_, ?_⟩
  · intro u v
    simp only [dot, rfuToFrd, v0, v1, v2, lit_real]
    push_cast; ring
  · intro u v
    funext i
    fin_cases i
    · show _ * _ - _ * _ = _ * _ - _ * _
      simp only [rfuToFrd, v0, v1, v2, lit_real]; push_cast; ring
    · show _ * _ - _ * _ = _ * _ - _ * _
      simp only [rfuToFrd, v0, v1, v2, lit_real]; push_cast; ring
    · show _ * _ - _ * _ = (_ - _) * _
      simp only [rfuToFrd, v0, v1, v2, lit_real]; push_cast; ring
  · intro v
    funext i
    fin_cases i
    · rfl
    · rfl
    · show v 2 * Fl.lit (-1) * Fl.lit (-1) = v 2
      rw [lit_real]; push_cast; ring
  · intro r f u
    simp only [rfuToFrd, v0, v1, v2, lit_real]
    push_cast
    rw [mul_neg_one]

/-- C60 for records: both measurements are converted, the time is not touched; a front-right-down file is
taken as it is. -/
theorem C60_record (r : ImuRec ℝ) :
    (r.toFrame true).acce = rfuToFrd r.acce ∧ (r.toFrame true).gyro = rfuToFrd r.gyro ∧ (r.toFrame true).time = r.time ∧
    r.toFrame false = r := ⟨rfl, rfl, rfl, rfl⟩

/-- A sensor at rest, upright, measures +g on the up axis; converted that is -g on the down axis. -/
example : rfuToFrd (v3 0 0 (9.8 : ℝ)) = v3 0 0 (-9.8) := C60_frame_conversion.2.2.2 0 0 9.8

/-- Two fixes, an unusable line and a third fix: only the first two are delivered. -/
example (f g h : GnssFields ℝ) (hf : f.time = 1) (hg : g.time = 2) (hb : h.time = 0) (t0 : Nat → ℝ) (q0 : Nat → BitVec 32) :
    readGnssFile .pos7 t0 q0 [.fields f, .fields g, .fields h, .fields f] true =
      .recs [⟨f.time, f.lat, f.lon, f.height, f.std, 1#32⟩, ⟨g.time, g.lat, g.lon, g.height, g.std, 1#32⟩] := by
  have h1 : Fl.lt (0 : ℝ) f.time = true := by rw [lt_real, hf]; norm_num
  have h2 : Fl.lt (0 : ℝ) g.time = true := by rw [lt_real, hg]; norm_num
  have h3 : Fl.lt (0 : ℝ) h.time = false := by rw [Bool.eq_false_iff, Ne, lt_real, hb]; norm_num
  rw [C76_gnss_file .pos7 (by simp)]
  rw [lt_real] at h1 h2
  rw [Bool.eq_false_iff, Ne, lt_real] at h3
  simp [lineRecord, gnssLine, h1, h2, h3, upToNone]
end real
end Verif.Props
