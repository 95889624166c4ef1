import Verif.Spec.RtpHeader
import Verif.Proofs.TwccRound
/-
  Lemmas on the RTP header and its extensions.
-/
namespace Str0m.Rtp
open Res
open Str0m.Twcc (rd16At rd24At rd32At)

variable {U : Type}

/-- The accumulator with the fields of one extension replaced. -/
def copy (env : Env U) (e : Ext) (ev acc : Vals U) : Vals U :=
  match e with
  | .absSendTime => match ev.absSend with | some t => { acc with absSend := some (wireSendTime t) } | none => acc
  | .absCaptureTime => match ev.absCapture with | some t => { acc with absCapture := some t } | none => acc
  | .audioLevel =>
    match ev.audioLevel, ev.voice with
    | some l, some v => { acc with audioLevel := some l, voice := some v }
    | _, _ => acc
  | .txOffset => match ev.txOffs with | some t => { acc with txOffs := some t } | none => acc
  | .orientation => match ev.orientation with | some t => { acc with orientation := some t } | none => acc
  | .transportCc => match ev.transportCc with | some t => { acc with transportCc := some t } | none => acc
  | .playoutDelay =>
    match ev.playMin, ev.playMax with
    | some a, some b => { acc with playMin := some a, playMax := some b }
    | _, _ => acc
  | .contentType => match ev.contentType with | some t => { acc with contentType := some t } | none => acc
  | .videoTiming => match ev.timing with | some t => { acc with timing := some t } | none => acc
  | .rid => match ev.rid with | some t => { acc with rid := some t } | none => acc
  | .ridRepair => match ev.ridRepair with | some t => { acc with ridRepair := some t } | none => acc
  | .mid => match ev.mid with | some t => { acc with mid := some t } | none => acc
  | .frameMarking => match ev.frameMark with | some t => { acc with frameMark := some t } | none => acc
  | .colorSpace => acc
  | .user uri =>
    if env.write uri ev.userVals = [] then acc
    else { acc with userVals := env.parse uri (env.write uri ev.userVals) acc.userVals }

theorem copy_unwritten {env : Env U} {e : Ext} {ev acc : Vals U} (h : e.write env ev = none) : copy env e ev acc = acc := by
  cases e <;> simp only [Ext.write, Option.map_eq_none_iff, Option.bind_eq_none_iff] at h <;> simp only [copy]
  case audioLevel =>
    cases h1 : ev.audioLevel with
    | none => rfl
    | some l =>
      have := h l h1
      rw [this]
  case playoutDelay =>
    cases h1 : ev.playMin with
    | none => rfl
    | some l =>
      have := h l h1
      rw [this]
  case user =>
    split at h
    · rename_i h'; rw [if_pos h']
    · cases h
  all_goals rw [h]

theorem id_chars {n : Nat} {s : List Byte} (h : FitsId n s) {env : Env U} (hu : AsciiUtf8 env) :
    env.utf8 s = some (s.map (·.val)) ∧ toId n (s.map (·.val)) = s := by
  constructor
  · refine hu s (fun b hb => ?_)
    rcases h.chars b hb with h1 | h1
    · simp only [isAlnum, Bool.or_eq_true, Bool.and_eq_true, decide_eq_true_eq] at h1; omega
    · omega
  · have h2 : (s.map (·.val)).map (fun c => if isAlnum c then u8 c else u8 95) = s := by
      rw [List.map_map]
      refine (List.map_congr_left (fun b hb => ?_)).trans (List.map_id s)
      rcases h.chars b hb with h1 | h1
      · simp only [Function.comp, h1, if_true, u8_of_val, id]
      · have h3 : b = u8 95 := by apply Fin.ext; rw [h1]; rfl
        subst h3
        rfl
    unfold toId
    rw [h2]
    exact List.take_of_length_le h.short

theorem audio_byte {l : Int} {v : Bool} (h1 : -127 ≤ l) (h2 : l ≤ 0) (h3 : v = false → l = 0) :
    -(((audioByte l v).val % 128 : Nat) : Int) = l ∧ decide ((audioByte l v).val &&& 0x80 > 0) = v := by
  have hl : l = -127 + ((l + 127).toNat : Int) := by omega
  have hk : (l + 127).toNat < 128 := by omega
  generalize (l + 127).toNat = k at hl hk
  cases v with
  | false => rw [h3 rfl]; decide
  | true =>
    subst hl
    have : ∀ k : Fin 128, -(((audioByte (-127 + (k.val : Int)) true).val % 128 : Nat) : Int) = -127 + (k.val : Int) ∧
        decide ((audioByte (-127 + (k.val : Int)) true).val &&& 0x80 > 0) = true := by decide
    exact this ⟨k, hk⟩

theorem playout_bytes {a b : Nat} (ha : a < 4096) (hb : b < 4096) :
    ((u8 (a / 16)).val * 16 ||| (u8 (a * 16 % 256 ||| b / 256)).val / 16) = a ∧
    (((u8 (a * 16 % 256 ||| b / 256)).val &&& 0xf) * 256 ||| (u8 b).val) = b := by
  have hsum : b / 256 * 2^8 + b % 256 = b := by omega
  have e1 : (a * 16 % 256 ||| b / 256) = a % 16 * 16 + b / 256 := by
    have : a * 16 % 256 = (a % 16) <<< 4 := by rw [Nat.shiftLeft_eq]; omega
    rw [this, Twcc.or_add (show b / 256 < 2^4 by omega)]; omega
  rw [e1]
  simp only [u8_val]
  constructor
  · have : a / 16 % 256 * 16 = (a / 16) <<< 4 := by rw [Nat.shiftLeft_eq]; omega
    rw [this, Twcc.or_add (show _ < 2^4 by omega)]; omega
  · have h15 : ((a % 16 * 16 + b / 256) % 256) &&& 0xf = b / 256 := by
      rw [show (0xf : Nat) = 2^4 - 1 from rfl, Nat.and_two_pow_sub_one_eq_mod]; omega
    have : b / 256 * 256 = (b / 256) <<< 8 := by simp [Nat.shiftLeft_eq]
    rw [h15, this]
    exact (Twcc.or_add (show b % 256 < 2^8 by omega)).trans hsum

theorem toI64_mod {x : Int} (h1 : -2^63 ≤ x) (h2 : x < 2^63) : toI64 (x % 2^64).toNat = x := by
  unfold toI64
  split <;> omega

theorem rd32At_be {n : Nat} (h : n < 2^32) (rest : List Byte) : rd32At (be32 n ++ rest) 0 = .ok n :=
  Twcc.rd32At_of (pre := []) h rfl rfl

theorem rd64_be {n : Nat} (h : n < 2^64) (pre rest : List Byte) :
    rd64At (pre ++ (be64 n ++ rest)) pre.length = .ok n := by
  unfold rd64At
  have e : be32 (n % 2^32) = be32 n := by
    simp only [be32]
    refine List.cons_eq_cons.2 ⟨?_, List.cons_eq_cons.2 ⟨?_, List.cons_eq_cons.2 ⟨?_, List.cons_eq_cons.2 ⟨?_, rfl⟩⟩⟩⟩ <;>
      (apply Fin.ext; simp only [u8_val]; omega)
  have h1 : rd32At (pre ++ (be64 n ++ rest)) pre.length = .ok (n / 2^32) :=
    Twcc.rd32At_of (pre := pre) (rest := be32 n ++ rest) (by omega) (by simp [be64]) rfl
  have h2 : rd32At (pre ++ (be64 n ++ rest)) (pre.length + 4) = .ok (n % 2^32) :=
    Twcc.rd32At_of (pre := pre ++ be32 (n / 2^32)) (rest := rest) (by omega) (by rw [e]; simp [be64]) (by simp)
  rw [bind_def, h1, bind_ok, bind_def, h2, bind_ok]
  simp only [pure_def, Res.ok.injEq]
  omega

theorem sendTime_wire (t : Nat) :
    ((MediaTime.mk (sendTime24 t) 262144).rebase 1000000).numer = wireSendTime t := by
  have e1 : sendTime24 t = t * 2^18 / 10^6 % 2^64 % 2^24 := by
    simp [sendTime24, MediaTime.rebase]
  unfold wireSendTime
  rw [← e1]
  simp only [MediaTime.rebase]
  rw [if_neg (by decide)]
  have : sendTime24 t < 2^24 := by rw [e1]; omega
  generalize sendTime24 t = n at this
  have e2 : (10 : Nat)^6 = 1000000 := by norm_num
  have e3 : (2 : Nat)^18 = 262144 := by norm_num
  rw [e2, e3]
  simp only
  omega

/-- Parsing what was written replaces the fields of the extension. -/
theorem parse_write {env : Env U} {e : Ext} {ev acc : Vals U} {bytes : List Byte} (hf : Fits ev) (hu : AsciiUtf8 env)
    (h : e.write env ev = some bytes) : e.parseValue env bytes acc = .ok (copy env e ev acc) := by
  cases e <;> simp only [Ext.write, Option.map_eq_some_iff, Option.bind_eq_some_iff] at h
  case absSendTime =>
    obtain ⟨t, ht, rfl⟩ := h
    have h24 : sendTime24 t < 2^24 := by unfold sendTime24; omega
    have h1 : rd24At (be24 (sendTime24 t)) 0 = .ok (sendTime24 t) := by
      have : rd24At (be24 (sendTime24 t)) 0 = .ok (rd24 (u8 (sendTime24 t / 2^16)) (u8 (sendTime24 t / 2^8)) (u8 (sendTime24 t))) := rfl
      rw [this, rd24_be24 h24]
    simp only [Ext.parseValue, copy, ht]
    rw [if_neg (by simp), bind_def, h1, bind_ok, sendTime_wire]
    rfl
  case absCaptureTime =>
    obtain ⟨⟨t, o⟩, ht, rfl⟩ := h
    obtain ⟨h64, ho⟩ := hf.absCapture t o ht
    simp only [Ext.parseValue, copy, ht]
    cases o with
    | none =>
      have h1 := rd64_be h64 [] []
      simp only [List.nil_append, List.append_nil, List.length_nil] at h1
      rw [if_neg (by simp), bind_def, h1, bind_ok, if_neg (by simp)]
      rfl
    | some x =>
      have hx := ho x rfl
      have h1 := rd64_be h64 [] (be64 (x % 2^64).toNat)
      have h2 := rd64_be (n := (x % 2^64).toNat) (by omega) (be64 t) []
      simp only [List.nil_append, List.append_nil, List.length_nil, be64_length] at h1 h2
      simp only
      rw [if_neg (by simp), bind_def, h1, bind_ok, if_pos (by simp), bind_def, h2, bind_ok, toI64_mod hx.1 hx.2]
      rfl
  case audioLevel =>
    obtain ⟨l, hl, v, hv, rfl⟩ := h
    obtain ⟨a1, a2, a3⟩ := hf.audio l v hl hv
    obtain ⟨b1, b2⟩ := audio_byte a1 a2 a3
    simp only [Ext.parseValue, copy, hl, hv]
    rw [if_neg (by simp)]
    simp only [Res.idx, List.getElem?_cons_zero, bind_def, bind_ok, b1, b2]
    rfl
  case txOffset =>
    obtain ⟨t, ht, rfl⟩ := h
    have h1 := rd32At_be (hf.txOffs t ht) []
    rw [List.append_nil] at h1
    simp only [Ext.parseValue, copy, ht]
    rw [if_neg (by simp), bind_def, h1, bind_ok]
    rfl
  case orientation =>
    obtain ⟨t, ht, rfl⟩ := h
    have h4 := hf.orientation t ht
    simp only [Ext.parseValue, copy, ht]
    rw [if_neg (by simp)]
    have : (u8 t).val &&& 3 = t := by
      rw [show (3 : Nat) = 2^2 - 1 from rfl, Nat.and_two_pow_sub_one_eq_mod, u8_val]; omega
    simp only [Res.idx, List.getElem?_cons_zero, bind_def, bind_ok, this]
    rfl
  case transportCc =>
    obtain ⟨t, ht, rfl⟩ := h
    have h1 := Twcc.rd16At_be16 (hf.transportCc t ht) []
    rw [List.append_nil] at h1
    simp only [Ext.parseValue, copy, ht]
    rw [if_neg (by simp), bind_def, h1, bind_ok]
    rfl
  case playoutDelay =>
    obtain ⟨a, ha, b, hb, rfl⟩ := h
    obtain ⟨a1, a2⟩ := hf.playMin a ha
    obtain ⟨b1, b2⟩ := hf.playMax b hb
    obtain ⟨an, ad⟩ := a
    obtain ⟨bn, bd⟩ := b
    simp only at a1 a2 b1 b2
    subst a1 b1
    obtain ⟨c1, c2⟩ := playout_bytes a2 b2
    simp only [Ext.parseValue, copy, ha, hb, MediaTime.rebase, if_true, Nat.mod_eq_of_lt a2, Nat.mod_eq_of_lt b2]
    rw [if_neg (by simp)]
    simp only [Res.idx, List.getElem?_cons_zero, List.getElem?_cons_succ, bind_def, bind_ok, c1, c2]
    rfl
  case contentType =>
    obtain ⟨t, ht, rfl⟩ := h
    simp only [Ext.parseValue, copy, ht]
    rw [if_neg (by simp)]
    simp only [Res.idx, List.getElem?_cons_zero, bind_def, bind_ok]
    rfl
  case videoTiming =>
    obtain ⟨⟨f, a, b, c, d⟩, ht, rfl⟩ := h
    obtain ⟨h1, h2, h3, h4⟩ := hf.timing _ ht
    simp only at h1 h2 h3 h4
    simp only [Ext.parseValue, copy, ht]
    rw [if_neg (by simp)]
    have r0 : (Res.idx (f :: (be16 a ++ be16 b ++ be16 c ++ be16 d ++ be16 0 ++ be16 0)) 0 : Res Unit Byte) = .ok f := rfl
    have r1 : rd16At (f :: (be16 a ++ be16 b ++ be16 c ++ be16 d ++ be16 0 ++ be16 0)) 1 = .ok (rd16 (u8 (a / 2^8)) (u8 a)) := rfl
    have r2 : rd16At (f :: (be16 a ++ be16 b ++ be16 c ++ be16 d ++ be16 0 ++ be16 0)) 3 = .ok (rd16 (u8 (b / 2^8)) (u8 b)) := rfl
    have r3 : rd16At (f :: (be16 a ++ be16 b ++ be16 c ++ be16 d ++ be16 0 ++ be16 0)) 5 = .ok (rd16 (u8 (c / 2^8)) (u8 c)) := rfl
    have r4 : rd16At (f :: (be16 a ++ be16 b ++ be16 c ++ be16 d ++ be16 0 ++ be16 0)) 7 = .ok (rd16 (u8 (d / 2^8)) (u8 d)) := rfl
    rw [bind_def, r0, bind_ok, bind_def, r1, bind_ok, bind_def, r2, bind_ok, bind_def, r3, bind_ok, bind_def, r4, bind_ok,
      rd16_be16 h1, rd16_be16 h2, rd16_be16 h3, rd16_be16 h4]
    rfl
  case rid =>
    obtain ⟨h1, h2⟩ := id_chars (hf.rid bytes h) hu
    simp only [Ext.parseValue, copy, h, h1, h2]
  case ridRepair =>
    obtain ⟨h1, h2⟩ := id_chars (hf.ridRepair bytes h) hu
    simp only [Ext.parseValue, copy, h, h1, h2]
  case mid =>
    obtain ⟨h1, h2⟩ := id_chars (hf.mid bytes h) hu
    simp only [Ext.parseValue, copy, h, h1, h2]
  case frameMarking =>
    obtain ⟨t, ht, rfl⟩ := h
    have h1 := rd32At_be (hf.frameMark t ht) []
    rw [List.append_nil] at h1
    simp only [Ext.parseValue, copy, ht]
    rw [if_neg (by simp), bind_def, h1, bind_ok]
    rfl
  case colorSpace => cases h
  case user uri =>
    split at h
    · cases h
    · rename_i hne
      simp only [Option.some.injEq] at h
      subst h
      simp only [Ext.parseValue, copy, if_neg hne]

/-! ### The extension block -/

theorem entriesFrom_mem {m : List (Option Entry)} {start id : Nat} {e : Ext} (h : (id, e) ∈ entriesFrom start m) :
    start ≤ id ∧ (m[id - start]?).join.map Entry.ext = some e ∧ id < start + m.length := by
  induction m generalizing start with
  | nil => cases h
  | cons x m ih =>
    have key : (id, e) ∈ entriesFrom (start + 1) m → start ≤ id ∧
        ((x :: m)[id - start]?).join.map Entry.ext = some e ∧ id < start + (x :: m).length := by
      intro h
      obtain ⟨a, b, c⟩ := ih h
      have : id - start = (id - (start + 1)) + 1 := by omega
      rw [this, List.getElem?_cons_succ, List.length_cons]
      exact ⟨by omega, b, by omega⟩
    cases x with
    | none => exact key h
    | some y =>
      simp only [entriesFrom, List.mem_cons] at h
      rcases h with h | h
      · simp only [Prod.mk.injEq] at h
        obtain ⟨rfl, rfl⟩ := h
        simp
      · exact key h

theorem iter_mem {m : ExtMap} (hm : m.length ≤ 16) {id : Nat} {e : Ext} (h : (id, e) ∈ m.iter) :
    1 ≤ id ∧ id ≤ 16 ∧ m.lookup id = some e := by
  obtain ⟨a, b, c⟩ := entriesFrom_mem h
  refine ⟨a, by omega, ?_⟩
  unfold ExtMap.lookup
  rw [if_pos ⟨a, by omega⟩, b]

theorem entriesFrom_ext {m : List (Option Entry)} {start : Nat} {e : Ext} :
    e ∈ (entriesFrom start m).map (·.2) ↔ Maps m e = true := by
  induction m generalizing start with
  | nil => simp [entriesFrom, Maps]
  | cons x m ih =>
    cases x with
    | none => simpa [entriesFrom, Maps] using ih (start := start + 1)
    | some y =>
      have := ih (start := start + 1)
      simp only [entriesFrom, List.map_cons, List.mem_cons, this]
      have h2 : Maps (some y :: m) e = (decide (some y.ext = some e) || Maps m e) := rfl
      rw [h2, Bool.or_eq_true, decide_eq_true_eq, Option.some.injEq, @eq_comm _ e]

theorem write_length {env : Env U} {m : ExtMap} {e : Ext} {ev : Vals U} {bytes : List Byte} (hf : Fits ev)
    (hu : UserFits env m ev) (hm : Maps m e = true) (h : e.write env ev = some bytes) :
    0 < bytes.length ∧ bytes.length ≤ 255 ∧ (e.twoByte env ev = false → bytes.length ≤ 16) := by
  have hid : ∀ {n : Nat} {s : List Byte}, n ≤ 16 → FitsId n s → 0 < s.length ∧ s.length ≤ 255 ∧ (false = false → s.length ≤ 16) := by
    intro n s hn h
    have := h.short
    have := List.length_pos_iff.2 h.nonempty
    omega
  cases e <;> simp only [Ext.write, Option.map_eq_some_iff, Option.bind_eq_some_iff] at h
  case absCaptureTime =>
    obtain ⟨⟨t, o⟩, ht, rfl⟩ := h
    cases o <;> simp
  case audioLevel => obtain ⟨_, _, _, _, rfl⟩ := h; simp
  case playoutDelay => obtain ⟨_, _, _, _, rfl⟩ := h; simp
  case rid => exact hid (by omega) (hf.rid _ h)
  case ridRepair => exact hid (by omega) (hf.ridRepair _ h)
  case mid => exact hid (by omega) (hf.mid _ h)
  case colorSpace => cases h
  case user uri =>
    split at h
    · cases h
    · rename_i hne
      simp only [Option.some.injEq] at h
      subst h
      exact ⟨List.length_pos_iff.2 hne, (hu uri hm).1, (hu uri hm).2⟩
  all_goals (obtain ⟨_, _, rfl⟩ := h; simp)

/-- The loop over the block. -/
theorem writeEntries_ok {env : Env U} {m : ExtMap} {ev : Vals U} {form : Form} (hf : Fits ev) (hu : UserFits env m ev)
    (L : List (Nat × Ext)) (hL : ∀ p ∈ L, Maps m p.2 = true ∧ (form = .oneByte → p.2.twoByte env ev = false)) :
    ∃ bytes, writeEntries env form ev L = .ok bytes ∧ bytes.length ≤ 257 * L.length := by
  induction L with
  | nil => exact ⟨[], rfl, by simp⟩
  | cons p L ih =>
    obtain ⟨bs, hbs, hlen⟩ := ih (fun q hq => hL q (List.mem_cons_of_mem _ hq))
    obtain ⟨id, e⟩ := p
    obtain ⟨hm, h1⟩ := hL (id, e) List.mem_cons_self
    simp only [writeEntries]
    cases hw : e.write env ev with
    | none => exact ⟨bs, hbs, by rw [List.length_cons]; omega⟩
    | some b =>
      obtain ⟨w1, w2, w3⟩ := write_length hf hu hm hw
      simp only [bind_def, hbs]
      cases form with
      | oneByte =>
        have := w3 (h1 rfl)
        simp only [element, if_pos (And.intro this w1), bind_ok]
        refine ⟨_, rfl, ?_⟩
        simp only [List.length_cons, List.length_append]
        omega
      | twoByte =>
        simp only [element, bind_ok]
        refine ⟨_, rfl, ?_⟩
        simp only [List.length_cons, List.length_append]
        omega

theorem parse_zeros {env : Env U} {m : ExtMap} {form : Form} (k fuel : Nat) (hk : k < fuel) (ev : Vals U) :
    parseExts env m form fuel (List.replicate k 0) ev = .ok ev := by
  induction k generalizing fuel with
  | zero =>
    obtain ⟨f, rfl⟩ : ∃ f, fuel = f + 1 := ⟨fuel - 1, by omega⟩
    simp only [List.replicate, parseExts]
  | succ k ih =>
    obtain ⟨f, rfl⟩ : ∃ f, fuel = f + 1 := ⟨fuel - 1, by omega⟩
    exact ih f (by omega)

/-- The entries with something to write, copied in turn. -/
def copyAll (env : Env U) (ev : Vals U) (L : List (Nat × Ext)) (acc : Vals U) : Vals U :=
  L.foldl (fun acc p => copy env p.2 ev acc) acc

theorem one_header {id len : Nat} (h1 : 1 ≤ id) (h2 : id ≤ 14) (h3 : 0 < len) (h4 : len ≤ 16) :
    (u8 ((id * 16) ||| (len - 1))).val ≠ 0 ∧ (u8 ((id * 16) ||| (len - 1))).val / 16 = id ∧
      (u8 ((id * 16) ||| (len - 1))).val % 16 + 1 = len := by
  have : id * 16 = id <<< 4 := by rw [Nat.shiftLeft_eq]
  rw [this, Twcc.or_add (show len - 1 < 2^4 by omega), u8_val]
  omega

theorem parse_elements {env : Env U} {m : ExtMap} {ev : Vals U} {form : Form} (hf : Fits ev) (ha : AsciiUtf8 env)
    (hu : UserFits env m ev)
    (L : List (Nat × Ext)) (hL : ∀ p ∈ L, 1 ≤ p.1 ∧ p.1 ≤ 16 ∧ m.lookup p.1 = some p.2 ∧ Maps m p.2 = true ∧
      (form = .oneByte → p.1 ≤ 14 ∧ p.2.twoByte env ev = false))
    {bytes : List Byte} (h : writeEntries env form ev L = .ok bytes) (k fuel : Nat) (hfuel : bytes.length + k < fuel)
    (acc : Vals U) :
    parseExts env m form fuel (bytes ++ List.replicate k 0) acc = .ok (copyAll env ev L acc) := by
  induction L generalizing bytes fuel acc with
  | nil =>
    simp only [writeEntries, Res.ok.injEq] at h
    subst h
    exact parse_zeros k fuel (by simpa using hfuel) acc
  | cons p L ih =>
    obtain ⟨id, e⟩ := p
    obtain ⟨l1, l2, l3, l4, l5⟩ := hL (id, e) List.mem_cons_self
    have hL' := fun q hq => hL q (List.mem_cons_of_mem _ hq)
    simp only at l1 l2 l3 l4 l5
    simp only [writeEntries] at h
    simp only [copyAll, List.foldl_cons]
    cases hw : e.write env ev with
    | none =>
      rw [hw] at h
      rw [copy_unwritten hw]
      exact ih hL' h fuel hfuel acc
    | some b =>
      obtain ⟨w1, w2, w3⟩ := write_length hf hu l4 hw
      rw [hw] at h
      simp only at h
      cases hr : writeEntries env form ev L with
      | err => rw [hr] at h; cases form <;> simp only [element] at h <;> (try split at h) <;> cases h
      | panic => rw [hr] at h; cases form <;> simp only [element] at h <;> (try split at h) <;> cases h
      | ok bs =>
        rw [hr] at h
        obtain ⟨f, rfl⟩ : ∃ f, fuel = f + 1 := ⟨fuel - 1, by omega⟩
        have step : parseElement env m id b.length (b ++ (bs ++ List.replicate k 0)) acc =
            .ok (some (copy env e ev acc, bs ++ List.replicate k 0)) := by
          unfold parseElement
          rw [if_neg (by simp), l3]
          simp only
          rw [List.take_left' rfl, List.drop_left' rfl, bind_def, parse_write hf ha hw, bind_ok]
          rfl
        cases form with
        | oneByte =>
          obtain ⟨l6, l7⟩ := l5 rfl
          obtain ⟨e1, e2, e3⟩ := one_header l1 l6 w1 (w3 l7)
          simp only [element, if_pos (And.intro (w3 l7) w1), bind_def, bind_ok, pure_def, Res.ok.injEq] at h
          subst h
          simp only [List.cons_append, List.append_assoc, parseExts]
          rw [if_neg e1]
          simp only [elementHead, e2, e3]
          rw [if_neg (by omega)]
          simp only [step]
          simp only [List.length_cons, List.length_append] at hfuel
          exact ih hL' hr f (by omega) _
        | twoByte =>
          simp only [element, bind_def, bind_ok, pure_def, Res.ok.injEq] at h
          subst h
          simp only [List.cons_append, List.append_assoc, parseExts]
          have e1 : (u8 id).val = id := u8_val_of_lt (by omega)
          have e2 : (u8 b.length).val = b.length := u8_val_of_lt (by omega)
          rw [if_neg (by omega)]
          simp only [elementHead, e1, e2, step]
          simp only [List.length_cons, List.length_append] at hfuel
          exact ih hL' hr f (by omega) _

/-! ### What the copies add up to -/

theorem copyAll_field {α : Type} {env : Env U} {ev : Vals U} (π : Vals U → Option α) (E : Ext) (v : Option α)
    (h1 : ∀ e acc, e ≠ E → π (copy env e ev acc) = π acc)
    (h2 : ∀ acc, π acc = none ∨ π acc = v → π (copy env E ev acc) = v) (m : List (Option Entry))
    (start : Nat) (acc : Vals U) (hacc : π acc = none ∨ π acc = v) :
    π (copyAll env ev (entriesFrom start m) acc) = if Maps m E = true then v else π acc := by
  induction m generalizing start acc with
  | nil => simp [copyAll, entriesFrom, Maps]
  | cons x m ih =>
    cases x with
    | none =>
      have : Maps (none :: m) E = Maps m E := rfl
      simp only [entriesFrom]
      rw [ih _ _ hacc, this]
    | some y =>
      have hc : copyAll env ev (entriesFrom start (some y :: m)) acc =
          copyAll env ev (entriesFrom (start + 1) m) (copy env y.ext ev acc) := rfl
      rw [hc]
      by_cases he : y.ext = E
      · have : Maps (some y :: m) E = true := by simp [Maps, he]
        rw [this, he, ih _ _ (Or.inr (h2 _ hacc)), h2 _ hacc]
        simp
      · have : Maps (some y :: m) E = Maps m E := by simp [Maps, he]
        rw [this, ih _ _ (by rw [h1 _ _ he]; exact hacc), h1 _ _ he]

theorem copyAll_user {env : Env U} {ev : Vals U} (m : List (Option Entry)) (start : Nat) (acc : Vals U) :
    (copyAll env ev (entriesFrom start m) acc).userVals = m.foldl (fun acc x =>
    match x.map Entry.ext with
    | some (.user uri) => if env.write uri ev.userVals = [] then acc else env.parse uri (env.write uri ev.userVals) acc
    | _ => acc) acc.userVals := by
  induction m generalizing start acc with
  | nil => rfl
  | cons x m ih =>
    cases x with
    | none =>
      simp only [entriesFrom]
      rw [ih]
      rfl
    | some y =>
      have hc : copyAll env ev (entriesFrom start (some y :: m)) acc =
          copyAll env ev (entriesFrom (start + 1) m) (copy env y.ext ev acc) := rfl
      rw [hc, ih, List.foldl_cons]
      congr 1
      obtain ⟨e, l⟩ := y
      cases e <;> simp only [copy, Option.map_some]
      case user uri => split <;> rfl
      all_goals (repeat' split) <;> rfl

theorem copyAll_default {α : Type} {env : Env U} {ev : Vals U} {m : ExtMap} (π : Vals U → Option α) (E : Ext) (v : Option α)
    (h1 : ∀ e acc, e ≠ E → π (copy env e ev acc) = π acc)
    (h2 : ∀ acc, π acc = none ∨ π acc = v → π (copy env E ev acc) = v)
    (h3 : π (Vals.default env.init) = none) :
    π (copyAll env ev m.iter (Vals.default env.init)) = if Maps m E = true then v else none := by
  rw [← h3]
  exact copyAll_field π E v h1 h2 m 1 _ (Or.inl h3)

theorem field_audioLevel (env : Env U) (m : ExtMap) (ev : Vals U) :
    (copyAll env ev m.iter (Vals.default env.init)).audioLevel = if Maps m .audioLevel = true then (if ev.voice.isSome then ev.audioLevel else none) else none := by
  refine copyAll_default (·.audioLevel) .audioLevel (if ev.voice.isSome then ev.audioLevel else none) ?_ ?_ rfl
  · intro e acc he
    cases e <;> first | exact absurd rfl he | (simp only [copy] <;> (repeat' split) <;> rfl)
  · intro acc h
    simp only [copy]
    cases haudioLevel : ev.audioLevel <;> cases hvoice : ev.voice <;> simp_all

theorem field_voice (env : Env U) (m : ExtMap) (ev : Vals U) :
    (copyAll env ev m.iter (Vals.default env.init)).voice = if Maps m .audioLevel = true then (if ev.audioLevel.isSome then ev.voice else none) else none := by
  refine copyAll_default (·.voice) .audioLevel (if ev.audioLevel.isSome then ev.voice else none) ?_ ?_ rfl
  · intro e acc he
    cases e <;> first | exact absurd rfl he | (simp only [copy] <;> (repeat' split) <;> rfl)
  · intro acc h
    simp only [copy]
    cases haudioLevel : ev.audioLevel <;> cases hvoice : ev.voice <;> simp_all

theorem field_orientation (env : Env U) (m : ExtMap) (ev : Vals U) :
    (copyAll env ev m.iter (Vals.default env.init)).orientation = if Maps m .orientation = true then ev.orientation else none := by
  refine copyAll_default (·.orientation) .orientation ev.orientation ?_ ?_ rfl
  · intro e acc he
    cases e <;> first | exact absurd rfl he | (simp only [copy] <;> (repeat' split) <;> rfl)
  · intro acc h
    simp only [copy]
    cases horientation : ev.orientation <;> simp_all

theorem field_contentType (env : Env U) (m : ExtMap) (ev : Vals U) :
    (copyAll env ev m.iter (Vals.default env.init)).contentType = if Maps m .contentType = true then ev.contentType else none := by
  refine copyAll_default (·.contentType) .contentType ev.contentType ?_ ?_ rfl
  · intro e acc he
    cases e <;> first | exact absurd rfl he | (simp only [copy] <;> (repeat' split) <;> rfl)
  · intro acc h
    simp only [copy]
    cases hcontentType : ev.contentType <;> simp_all

theorem field_txOffs (env : Env U) (m : ExtMap) (ev : Vals U) :
    (copyAll env ev m.iter (Vals.default env.init)).txOffs = if Maps m .txOffset = true then ev.txOffs else none := by
  refine copyAll_default (·.txOffs) .txOffset ev.txOffs ?_ ?_ rfl
  · intro e acc he
    cases e <;> first | exact absurd rfl he | (simp only [copy] <;> (repeat' split) <;> rfl)
  · intro acc h
    simp only [copy]
    cases htxOffs : ev.txOffs <;> simp_all

theorem field_absSend (env : Env U) (m : ExtMap) (ev : Vals U) :
    (copyAll env ev m.iter (Vals.default env.init)).absSend = if Maps m .absSendTime = true then (ev.absSend.map wireSendTime) else none := by
  refine copyAll_default (·.absSend) .absSendTime (ev.absSend.map wireSendTime) ?_ ?_ rfl
  · intro e acc he
    cases e <;> first | exact absurd rfl he | (simp only [copy] <;> (repeat' split) <;> rfl)
  · intro acc h
    simp only [copy]
    cases habsSend : ev.absSend <;> simp_all

theorem field_absCapture (env : Env U) (m : ExtMap) (ev : Vals U) :
    (copyAll env ev m.iter (Vals.default env.init)).absCapture = if Maps m .absCaptureTime = true then ev.absCapture else none := by
  refine copyAll_default (·.absCapture) .absCaptureTime ev.absCapture ?_ ?_ rfl
  · intro e acc he
    cases e <;> first | exact absurd rfl he | (simp only [copy] <;> (repeat' split) <;> rfl)
  · intro acc h
    simp only [copy]
    cases habsCapture : ev.absCapture <;> simp_all

theorem field_transportCc (env : Env U) (m : ExtMap) (ev : Vals U) :
    (copyAll env ev m.iter (Vals.default env.init)).transportCc = if Maps m .transportCc = true then ev.transportCc else none := by
  refine copyAll_default (·.transportCc) .transportCc ev.transportCc ?_ ?_ rfl
  · intro e acc he
    cases e <;> first | exact absurd rfl he | (simp only [copy] <;> (repeat' split) <;> rfl)
  · intro acc h
    simp only [copy]
    cases htransportCc : ev.transportCc <;> simp_all

theorem field_playMin (env : Env U) (m : ExtMap) (ev : Vals U) :
    (copyAll env ev m.iter (Vals.default env.init)).playMin = if Maps m .playoutDelay = true then (if ev.playMax.isSome then ev.playMin else none) else none := by
  refine copyAll_default (·.playMin) .playoutDelay (if ev.playMax.isSome then ev.playMin else none) ?_ ?_ rfl
  · intro e acc he
    cases e <;> first | exact absurd rfl he | (simp only [copy] <;> (repeat' split) <;> rfl)
  · intro acc h
    simp only [copy]
    cases hplayMin : ev.playMin <;> cases hplayMax : ev.playMax <;> simp_all

theorem field_playMax (env : Env U) (m : ExtMap) (ev : Vals U) :
    (copyAll env ev m.iter (Vals.default env.init)).playMax = if Maps m .playoutDelay = true then (if ev.playMin.isSome then ev.playMax else none) else none := by
  refine copyAll_default (·.playMax) .playoutDelay (if ev.playMin.isSome then ev.playMax else none) ?_ ?_ rfl
  · intro e acc he
    cases e <;> first | exact absurd rfl he | (simp only [copy] <;> (repeat' split) <;> rfl)
  · intro acc h
    simp only [copy]
    cases hplayMin : ev.playMin <;> cases hplayMax : ev.playMax <;> simp_all

theorem field_timing (env : Env U) (m : ExtMap) (ev : Vals U) :
    (copyAll env ev m.iter (Vals.default env.init)).timing = if Maps m .videoTiming = true then ev.timing else none := by
  refine copyAll_default (·.timing) .videoTiming ev.timing ?_ ?_ rfl
  · intro e acc he
    cases e <;> first | exact absurd rfl he | (simp only [copy] <;> (repeat' split) <;> rfl)
  · intro acc h
    simp only [copy]
    cases htiming : ev.timing <;> simp_all

theorem field_rid (env : Env U) (m : ExtMap) (ev : Vals U) :
    (copyAll env ev m.iter (Vals.default env.init)).rid = if Maps m .rid = true then ev.rid else none := by
  refine copyAll_default (·.rid) .rid ev.rid ?_ ?_ rfl
  · intro e acc he
    cases e <;> first | exact absurd rfl he | (simp only [copy] <;> (repeat' split) <;> rfl)
  · intro acc h
    simp only [copy]
    cases hrid : ev.rid <;> simp_all

theorem field_ridRepair (env : Env U) (m : ExtMap) (ev : Vals U) :
    (copyAll env ev m.iter (Vals.default env.init)).ridRepair = if Maps m .ridRepair = true then ev.ridRepair else none := by
  refine copyAll_default (·.ridRepair) .ridRepair ev.ridRepair ?_ ?_ rfl
  · intro e acc he
    cases e <;> first | exact absurd rfl he | (simp only [copy] <;> (repeat' split) <;> rfl)
  · intro acc h
    simp only [copy]
    cases hridRepair : ev.ridRepair <;> simp_all

theorem field_mid (env : Env U) (m : ExtMap) (ev : Vals U) :
    (copyAll env ev m.iter (Vals.default env.init)).mid = if Maps m .mid = true then ev.mid else none := by
  refine copyAll_default (·.mid) .mid ev.mid ?_ ?_ rfl
  · intro e acc he
    cases e <;> first | exact absurd rfl he | (simp only [copy] <;> (repeat' split) <;> rfl)
  · intro acc h
    simp only [copy]
    cases hmid : ev.mid <;> simp_all

theorem field_frameMark (env : Env U) (m : ExtMap) (ev : Vals U) :
    (copyAll env ev m.iter (Vals.default env.init)).frameMark = if Maps m .frameMarking = true then ev.frameMark else none := by
  refine copyAll_default (·.frameMark) .frameMarking ev.frameMark ?_ ?_ rfl
  · intro e acc he
    cases e <;> first | exact absurd rfl he | (simp only [copy] <;> (repeat' split) <;> rfl)
  · intro acc h
    simp only [copy]
    cases hframeMark : ev.frameMark <;> simp_all

theorem if_and {α : Type} (a b : Bool) (x : Option α) : (if a = true then (if b = true then x else none) else none) =
    if a = true ∧ b = true then x else none := by
  cases a <;> cases b <;> rfl

theorem carried_eq (env : Env U) (m : ExtMap) (ev : Vals U) :
    copyAll env ev m.iter (Vals.default env.init) = carried env m ev := by
  have f16 : (copyAll env ev m.iter (Vals.default env.init)).userVals = userCarried env m ev.userVals :=
    copyAll_user m 1 _
  have f1 := field_audioLevel env m ev
  have f2 := field_voice env m ev
  have f3 := field_orientation env m ev
  have f4 := field_contentType env m ev
  have f5 := field_txOffs env m ev
  have f6 := field_absSend env m ev
  have f7 := field_absCapture env m ev
  have f8 := field_transportCc env m ev
  have f9 := field_playMin env m ev
  have f10 := field_playMax env m ev
  have f11 := field_timing env m ev
  have f12 := field_rid env m ev
  have f13 := field_ridRepair env m ev
  have f14 := field_mid env m ev
  have f15 := field_frameMark env m ev
  generalize copyAll env ev m.iter (Vals.default env.init) = r at *
  obtain ⟨r1, r2, r3, r4, r5, r6, r7, r8, r9, r10, r11, r12, r13, r14, r15, r16⟩ := r
  simp only at f1 f2 f3 f4 f5 f6 f7 f8 f9 f10 f11 f12 f13 f14 f15 f16
  subst f1 f2 f3 f4 f5 f6 f7 f8 f9 f10 f11 f12 f13 f14 f15 f16
  simp only [carried, if_and]

/-! ### The fixed part -/

theorem readCsrc_be {l : List Nat} (hl : ∀ x ∈ l, x < 2^32) (rest : List Byte) :
    readCsrc l.length (l.flatMap be32 ++ rest) = .ok l := by
  induction l with
  | nil => rfl
  | cons x l ih =>
    simp only [List.length_cons, readCsrc, List.flatMap_cons, List.append_assoc]
    rw [bind_def, rd32At_be (hl x List.mem_cons_self), bind_ok, List.drop_left' (by simp), bind_def,
      ih (fun y hy => hl y (List.mem_cons_of_mem _ hy)), bind_ok]
    rfl

theorem flatMap_be32_length (l : List Nat) : (l.flatMap be32).length = 4 * l.length := by
  induction l with
  | nil => rfl
  | cons x l ih => simp only [List.flatMap_cons, List.length_append, ih, be32_length, List.length_cons]; omega

theorem byte0 (p : Bool) (n : Nat) (hn : n ≤ 15) :
    let b := u8 (0x80 ||| (if p then 0x20 else 0) ||| 0x10 ||| n)
    (b.val &&& 0xC0) / 64 = 2 ∧ decide (b.val &&& 0x20 > 0) = p ∧ b.val &&& 0x10 > 0 ∧ b.val &&& 15 = n := by
  have : ∀ (p : Bool) (n : Fin 16), let b := u8 (0x80 ||| (if p then 0x20 else 0) ||| 0x10 ||| n.val)
    (b.val &&& 0xC0) / 64 = 2 ∧ decide (b.val &&& 0x20 > 0) = p ∧ b.val &&& 0x10 > 0 ∧ b.val &&& 15 = n.val := by decide
  exact this p ⟨n, by omega⟩

theorem byte1 (mk : Bool) (pt : Nat) (hn : pt < 128) :
    let b := u8 (pt ||| (if mk then 0x80 else 0))
    decide (b.val &&& 0x80 > 0) = mk ∧ b.val &&& 0x7f = pt := by
  have : ∀ (mk : Bool) (pt : Fin 128), let b := u8 (pt.val ||| (if mk then 0x80 else 0))
    decide (b.val &&& 0x80 > 0) = mk ∧ b.val &&& 0x7f = pt.val := by decide
  exact this mk ⟨pt, hn⟩

theorem form_code (f : Form) : Form.parse (u8 (f.code / 2^8)) (u8 f.code) = some f := by
  cases f <;> decide

theorem padTo4_eq (bs : List Byte) : ∃ k, padTo4 bs = bs ++ List.replicate k 0 ∧ (padTo4 bs).length % 4 = 0 ∧ k < 4 := by
  unfold padTo4
  split
  · refine ⟨_, rfl, ?_, by omega⟩
    simp only [List.length_append, List.length_replicate]
    omega
  · exact ⟨0, by simp, by omega, by omega⟩

/-- The block is read back, and nothing of what follows. -/
theorem parseBlock_ok {env : Env U} {m : ExtMap} {ev : Vals U} (hm : m.length ≤ 16) (hf : Fits ev) (ha : AsciiUtf8 env)
    (hu : UserFits env m ev) {exts : List Byte} (hw : writeEntries env (m.form env ev) ev m.iter = .ok exts)
    (hlen : exts.length ≤ 257 * 16) (rest : List Byte) :
    parseBlock env m (be16 (m.form env ev).code ++ be16 ((padTo4 exts).length / 4) ++ padTo4 exts ++ rest) =
      .ok (carried env m ev, rest) := by
  obtain ⟨k, hk, h4, hk4⟩ := padTo4_eq exts
  have hpl : (padTo4 exts).length = exts.length + k := by rw [hk]; simp
  unfold parseBlock
  rw [if_neg (by simp only [List.length_append, be16_length]; omega)]
  have i0 : (Res.idx (be16 (m.form env ev).code ++ be16 ((padTo4 exts).length / 4) ++ padTo4 exts ++ rest) 0 : Res Unit Byte) =
      .ok (u8 ((m.form env ev).code / 2^8)) := rfl
  have i1 : (Res.idx (be16 (m.form env ev).code ++ be16 ((padTo4 exts).length / 4) ++ padTo4 exts ++ rest) 1 : Res Unit Byte) =
      .ok (u8 ((m.form env ev).code)) := rfl
  have i2 : rd16At (be16 (m.form env ev).code ++ be16 ((padTo4 exts).length / 4) ++ padTo4 exts ++ rest) 2 =
      .ok (rd16 (u8 ((padTo4 exts).length / 4 / 2^8)) (u8 ((padTo4 exts).length / 4))) := rfl
  rw [bind_def, i0, bind_ok, bind_def, i1, bind_ok, form_code]
  simp only
  rw [bind_def, i2, bind_ok, rd16_be16 (by omega), bind_def, Res.from_of_le (by simp only [List.length_append, be16_length]; omega),
    bind_ok]
  have hd : List.drop 4 (be16 (m.form env ev).code ++ be16 ((padTo4 exts).length / 4) ++ padTo4 exts ++ rest) =
      padTo4 exts ++ rest := by
    rw [List.append_assoc, List.drop_left' (by simp)]
  have h44 : (padTo4 exts).length / 4 * 4 = (padTo4 exts).length := by omega
  rw [hd, h44, if_neg (by simp), bind_def, Res.upto_of_le (by simp), bind_ok, List.take_left' rfl]
  have hp := parse_elements (form := m.form env ev) hf ha hu m.iter (by
    intro p hp
    obtain ⟨id, e⟩ := p
    obtain ⟨a, b, c⟩ := iter_mem hm hp
    refine ⟨a, b, c, entriesFrom_ext.1 (List.mem_map.2 ⟨_, hp, rfl⟩), ?_⟩
    intro hform
    unfold ExtMap.form at hform
    split at hform
    · cases hform
    · rename_i hany
      have := fun hh => hany (List.any_eq_true.2 ⟨(id, e), hp, hh⟩)
      simp only [Bool.or_eq_true, decide_eq_true_eq] at this
      have := not_or.1 this
      exact ⟨by simp only; omega, by simpa using this.2⟩) hw k ((padTo4 exts).length + 1) (by omega) (Vals.default env.init)
  rw [← hk, carried_eq] at hp
  rw [bind_def, hp, bind_ok, bind_def, Res.from_of_le (by simp), bind_ok, List.drop_left' rfl]
  rfl

theorem iter_length {m : ExtMap} : m.iter.length ≤ m.length := by
  have : ∀ (m : List (Option Entry)) (s : Nat), (entriesFrom s m).length ≤ m.length := by
    intro m
    induction m with
    | nil => intro s; simp [entriesFrom]
    | cons x m ih =>
      intro s
      have := ih (s + 1)
      cases x <;> simp only [entriesFrom, List.length_cons] <;> omega
  exact this m 1

theorem header_round {env : Env U} {m : ExtMap} {h : Header U} (hm : m.length ≤ 16) (hv : Valid h) (ha : AsciiUtf8 env)
    (hu : UserFits env m h.extVals) :
    ∃ bytes, h.write env m = .ok bytes ∧ ∀ rest, Header.parse env m (bytes ++ rest) =
      .ok { h with extVals := carried env m h.extVals, headerLen := bytes.length } := by
  obtain ⟨exts, hw, hlen⟩ := writeEntries_ok (form := m.form env h.extVals) hv.vals hu m.iter (by
    intro p hp
    obtain ⟨id, e⟩ := p
    refine ⟨entriesFrom_ext.1 (List.mem_map.2 ⟨_, hp, rfl⟩), ?_⟩
    intro hform
    unfold ExtMap.form at hform
    split at hform
    · cases hform
    · rename_i hany
      have := fun hh => hany (List.any_eq_true.2 ⟨(id, e), hp, hh⟩)
      simp only [Bool.or_eq_true, decide_eq_true_eq] at this
      have := not_or.1 this
      simpa using this.2)
  have hil := @iter_length m
  have hc := hv.count
  have hpt := hv.pt
  unfold Header.write
  rw [if_neg (by omega), bind_def, hw, bind_ok, hv.ext]
  refine ⟨_, rfl, fun rest => ?_⟩
  have hcl : (h.csrc.take h.csrcCount).length = h.csrcCount := by rw [List.length_take, hv.slots]; omega
  obtain ⟨a1, a2, a3, a4⟩ := byte0 h.hasPadding h.csrcCount hc
  obtain ⟨b1, b2⟩ := byte1 h.marker h.payloadType hpt
  simp only [if_true]
  generalize hB0 : u8 (0x80 ||| (if h.hasPadding = true then 0x20 else 0) ||| 0x10 ||| h.csrcCount) = B0 at *
  generalize hB1 : u8 (h.payloadType ||| (if h.marker = true then 0x80 else 0)) = B1 at *
  have hpb := parseBlock_ok hm hv.vals ha hu hw (by omega) rest
  generalize hblk : be16 (m.form env h.extVals).code ++ be16 ((padTo4 exts).length / 4) ++ padTo4 exts = blk at *
  generalize hcs : (h.csrc.take h.csrcCount) = cs at *
  have hbuf : [B0, B1] ++ be16 h.sequenceNumber ++ be32 h.timestamp ++ be32 h.ssrc ++ cs.flatMap be32
      ++ be16 (m.form env h.extVals).code ++ be16 ((padTo4 exts).length / 4) ++ padTo4 exts ++ rest =
      [B0, B1] ++ (be16 h.sequenceNumber ++ (be32 h.timestamp ++ (be32 h.ssrc ++ (cs.flatMap be32 ++ (blk ++ rest))))) := by
    rw [← hblk]; simp only [List.append_assoc]
  have hlen' : ([B0, B1] ++ be16 h.sequenceNumber ++ be32 h.timestamp ++ be32 h.ssrc ++ cs.flatMap be32
      ++ be16 (m.form env h.extVals).code ++ be16 ((padTo4 exts).length / 4) ++ padTo4 exts).length =
      12 + 4 * h.csrcCount + blk.length := by
    rw [← hblk]
    simp only [List.length_append, flatMap_be32_length, hcl, be16_length, be32_length, List.length_cons, List.length_nil]
    omega
  rw [hlen', hbuf]
  clear hbuf hlen'
  have hblen : ([B0, B1] ++ (be16 h.sequenceNumber ++ (be32 h.timestamp ++ (be32 h.ssrc ++ (cs.flatMap be32 ++ (blk ++ rest)))))).length
      = 12 + 4 * h.csrcCount + blk.length + rest.length := by
    simp only [List.length_append, flatMap_be32_length, hcl, be16_length, be32_length, List.length_cons, List.length_nil]
    omega
  have i0 : (Res.idx ([B0, B1] ++ (be16 h.sequenceNumber ++ (be32 h.timestamp ++ (be32 h.ssrc ++ (cs.flatMap be32 ++ (blk ++ rest)))))) 0
    : Res Unit Byte) = .ok B0 := rfl
  have i1 : (Res.idx ([B0, B1] ++ (be16 h.sequenceNumber ++ (be32 h.timestamp ++ (be32 h.ssrc ++ (cs.flatMap be32 ++ (blk ++ rest)))))) 1
    : Res Unit Byte) = .ok B1 := rfl
  have i2 : rd16At ([B0, B1] ++ (be16 h.sequenceNumber ++ (be32 h.timestamp ++ (be32 h.ssrc ++ (cs.flatMap be32 ++ (blk ++ rest)))))) 2
    = .ok (rd16 (u8 (h.sequenceNumber / 2^8)) (u8 h.sequenceNumber)) := rfl
  rw [rd16_be16 hv.seq] at i2
  have i3 : rd32At ([B0, B1] ++ (be16 h.sequenceNumber ++ (be32 h.timestamp ++ (be32 h.ssrc ++ (cs.flatMap be32 ++ (blk ++ rest)))))) 4
    = .ok h.timestamp := Twcc.rd32At_of (pre := [B0, B1] ++ be16 h.sequenceNumber)
      (rest := be32 h.ssrc ++ (cs.flatMap be32 ++ (blk ++ rest))) hv.ts (by simp only [List.append_assoc]) (by simp)
  have i4 : rd32At ([B0, B1] ++ (be16 h.sequenceNumber ++ (be32 h.timestamp ++ (be32 h.ssrc ++ (cs.flatMap be32 ++ (blk ++ rest)))))) 8
    = .ok h.ssrc := Twcc.rd32At_of (pre := [B0, B1] ++ be16 h.sequenceNumber ++ be32 h.timestamp)
      (rest := cs.flatMap be32 ++ (blk ++ rest)) hv.ssrc
      (by simp only [List.append_assoc]) (by simp)
  have i5 : List.drop 12 ([B0, B1] ++ (be16 h.sequenceNumber ++ (be32 h.timestamp ++ (be32 h.ssrc ++ (cs.flatMap be32 ++ (blk ++ rest))))))
    = cs.flatMap be32 ++ (blk ++ rest) := by
    have : [B0, B1] ++ (be16 h.sequenceNumber ++ (be32 h.timestamp ++ (be32 h.ssrc ++ (cs.flatMap be32 ++ (blk ++ rest))))) =
      ([B0, B1] ++ be16 h.sequenceNumber ++ be32 h.timestamp ++ be32 h.ssrc) ++ (cs.flatMap be32 ++ (blk ++ rest)) := by
      simp only [List.append_assoc]
    rw [this, List.drop_left' (by simp)]
  generalize ([B0, B1] ++ (be16 h.sequenceNumber ++ (be32 h.timestamp ++ (be32 h.ssrc ++ (cs.flatMap be32 ++ (blk ++ rest)))))) = buf at *
  have hcsr := readCsrc_be (l := cs) (fun x hx => hv.csrc x (List.mem_of_mem_take (hcs ▸ hx))) (blk ++ rest)
  rw [hcl] at hcsr
  have hcfl : (cs.flatMap be32).length = 4 * h.csrcCount := by rw [flatMap_be32_length, hcl]
  have hcsrc : cs ++ List.replicate (15 - h.csrcCount) 0 = h.csrc := by
    rw [← hcs, ← hv.unused, List.take_append_drop]
  unfold Header.parse
  rw [if_neg (by omega), bind_def, i0, bind_ok, if_neg (by omega), bind_def, i1, bind_ok, bind_def, i2, bind_ok,
    bind_def, i3, bind_ok, bind_def, i4, bind_ok, bind_def, Res.from_of_le (by omega), bind_ok, i5, a4,
    if_neg (by rw [List.length_append, hcfl]; omega), bind_def, hcsr, bind_ok, bind_def,
    Res.from_of_le (by rw [List.length_append, hcfl]; omega), bind_ok, List.drop_left' hcfl, bind_def, if_pos a3, hpb, bind_ok]
  simp only [pure_def, a2, b1, b2, hcsrc, Res.ok.injEq]
  have hx : decide (B0.val &&& 0x10 > 0) = true := by simpa using a3
  rw [hx, hblen, ← hv.ext]
  have : 12 + 4 * h.csrcCount + blk.length + rest.length - rest.length = 12 + 4 * h.csrcCount + blk.length := by omega
  rw [this]

/-! ### Totality -/

theorem rd16At_np {buf : List Byte} {i : Nat} (h : i + 1 < buf.length) : (rd16At buf i).NoPanic := by
  unfold rd16At
  simp only [bind_def]
  rw [Res.idx_of_lt (by omega), bind_ok, Res.idx_of_lt (by omega), bind_ok]
  trivial

theorem rd24At_np {buf : List Byte} {i : Nat} (h : i + 2 < buf.length) : (rd24At buf i).NoPanic := by
  unfold rd24At
  simp only [bind_def]
  rw [Res.idx_of_lt (by omega), bind_ok, Res.idx_of_lt (by omega), bind_ok, Res.idx_of_lt (by omega), bind_ok]
  trivial

theorem rd32At_np {buf : List Byte} {i : Nat} (h : i + 3 < buf.length) : (rd32At buf i).NoPanic := by
  unfold rd32At
  simp only [bind_def]
  rw [Res.idx_of_lt (by omega), bind_ok, Res.idx_of_lt (by omega), bind_ok, Res.idx_of_lt (by omega), bind_ok,
    Res.idx_of_lt (by omega), bind_ok]
  trivial

theorem rd64At_np {buf : List Byte} {i : Nat} (h : i + 7 < buf.length) : (rd64At buf i).NoPanic := by
  unfold rd64At
  refine NoPanic.bind (rd32At_np (by omega)) (fun a _ => ?_)
  exact NoPanic.bind (rd32At_np (by omega)) (fun a _ => trivial)

theorem parseValue_np (env : Env U) (e : Ext) (buf : List Byte) (ev : Vals U) : (e.parseValue env buf ev).NoPanic := by
  cases e <;> simp only [Ext.parseValue] <;> (try split) <;> (try trivial)
  case absSendTime => exact NoPanic.bind (rd24At_np (by omega)) (fun a _ => trivial)
  case absCaptureTime =>
    refine NoPanic.bind (rd64At_np (by omega)) (fun a _ => ?_)
    split
    · exact NoPanic.bind (rd64At_np (by omega)) (fun a _ => trivial)
    · trivial
  case audioLevel => exact NoPanic.bind (Res.idx_noPanic (by omega)) (fun a _ => trivial)
  case txOffset => exact NoPanic.bind (rd32At_np (by omega)) (fun a _ => trivial)
  case orientation => exact NoPanic.bind (Res.idx_noPanic (by omega)) (fun a _ => trivial)
  case transportCc => exact NoPanic.bind (rd16At_np (by omega)) (fun a _ => trivial)
  case playoutDelay =>
    refine NoPanic.bind (Res.idx_noPanic (by omega)) (fun a _ => ?_)
    refine NoPanic.bind (Res.idx_noPanic (by omega)) (fun a _ => ?_)
    exact NoPanic.bind (Res.idx_noPanic (by omega)) (fun a _ => trivial)
  case contentType => exact NoPanic.bind (Res.idx_noPanic (by omega)) (fun a _ => trivial)
  case videoTiming =>
    refine NoPanic.bind (Res.idx_noPanic (by omega)) (fun a _ => ?_)
    refine NoPanic.bind (rd16At_np (by omega)) (fun a _ => ?_)
    refine NoPanic.bind (rd16At_np (by omega)) (fun a _ => ?_)
    refine NoPanic.bind (rd16At_np (by omega)) (fun a _ => ?_)
    exact NoPanic.bind (rd16At_np (by omega)) (fun a _ => trivial)
  case frameMarking => exact NoPanic.bind (rd32At_np (by omega)) (fun a _ => trivial)

theorem elementHead_len {form : Form} {b0 : Byte} {rest r : List Byte} {id len : Nat}
    (h : elementHead form b0 rest = some (id, len, r)) : r.length ≤ rest.length := by
  unfold elementHead at h
  cases form with
  | oneByte =>
    simp only at h
    split at h
    · cases h
    · simp only [Option.some.injEq, Prod.mk.injEq] at h; rw [h.2.2]
  | twoByte =>
    cases rest with
    | nil => cases h
    | cons b1 rest =>
      simp only [Option.some.injEq, Prod.mk.injEq] at h; rw [← h.2.2, List.length_cons]; omega

theorem parseElement_np (env : Env U) (m : ExtMap) (id len : Nat) (buf : List Byte) (ev : Vals U) :
    (parseElement env m id len buf ev).NoPanic ∧
      ∀ ev' r, parseElement env m id len buf ev = .ok (some (ev', r)) → r.length ≤ buf.length := by
  unfold parseElement
  split
  · exact ⟨trivial, fun _ _ h => by cases h⟩
  · split
    · rename_i e _
      have := parseValue_np env e (buf.take len) ev
      cases hp : e.parseValue env (buf.take len) ev with
      | err => simp
      | panic => rw [hp] at this; exact this.elim
      | ok v =>
        refine ⟨trivial, fun ev' r h => ?_⟩
        simp only [bind_def, bind_ok, pure_def, Res.ok.injEq, Option.some.injEq, Prod.mk.injEq] at h
        rw [← h.2, List.length_drop]; omega
    · refine ⟨trivial, fun ev' r h => ?_⟩
      simp only [Res.ok.injEq, Option.some.injEq, Prod.mk.injEq] at h
      rw [← h.2, List.length_drop]; omega

theorem parseExts_np (env : Env U) (m : ExtMap) (form : Form) (fuel : Nat) (buf : List Byte) (h : buf.length < fuel)
    (ev : Vals U) : (parseExts env m form fuel buf ev).NoPanic := by
  induction fuel generalizing buf ev with
  | zero => omega
  | succ fuel ih =>
    cases buf with
    | nil => trivial
    | cons b0 rest =>
      rw [List.length_cons] at h
      simp only [parseExts]
      split
      · exact ih _ (by omega) _
      · split
        · trivial
        · rename_i id len r hh
          have hl := elementHead_len hh
          have he := parseElement_np env m id len r ev
          split
          · rename_i ev' r' hr
            have := he.2 _ _ hr
            exact ih _ (by omega) _
          · trivial
          · trivial
          · rename_i hr; rw [hr] at he; exact he.1.elim

theorem readCsrc_np (n : Nat) (buf : List Byte) (h : 4 * n ≤ buf.length) : (readCsrc n buf).NoPanic := by
  induction n generalizing buf with
  | zero => trivial
  | succ n ih =>
    simp only [readCsrc]
    refine NoPanic.bind (rd32At_np (by omega)) (fun a _ => ?_)
    exact NoPanic.bind (ih _ (by rw [List.length_drop]; omega)) (fun a _ => trivial)

theorem parseBlock_total (env : Env U) (m : ExtMap) (buf : List Byte) :
    (parseBlock env m buf).NoPanic ∧ ∀ ev rest, parseBlock env m buf = .ok (ev, rest) → rest.length ≤ buf.length := by
  unfold parseBlock
  split
  · exact ⟨trivial, fun _ _ h => by cases h⟩
  · rw [bind_def, Res.idx_of_lt (by omega), bind_ok, bind_def, Res.idx_of_lt (by omega), bind_ok]
    split
    · exact ⟨trivial, fun _ _ h => by cases h⟩
    · cases hr : rd16At buf 2 with
      | err => simp
      | panic => have := rd16At_np (buf := buf) (i := 2) (by omega); rw [hr] at this; exact this.elim
      | ok words =>
        rw [bind_def, bind_ok, bind_def, Res.from_of_le (by omega), bind_ok]
        split
        · exact ⟨trivial, fun _ _ h => by cases h⟩
        · rw [bind_def, Res.upto_of_le (by omega), bind_ok]
          rename_i form _ hlt
          have hp := parseExts_np env m form ((List.take (words * 4) (List.drop 4 buf)).length + 1)
            (List.take (words * 4) (List.drop 4 buf)) (by omega) (Vals.default env.init)
          cases hx : parseExts env m form ((List.take (words * 4) (List.drop 4 buf)).length + 1)
            (List.take (words * 4) (List.drop 4 buf)) (Vals.default env.init) with
          | err => simp
          | panic => rw [hx] at hp; exact hp.elim
          | ok ev =>
            rw [bind_def, bind_ok, bind_def, Res.from_of_le (by omega), bind_ok]
            refine ⟨trivial, fun ev' rest h => ?_⟩
            simp only [pure_def, Res.ok.injEq, Prod.mk.injEq] at h
            rw [← h.2, List.length_drop, List.length_drop]
            omega

theorem header_total (env : Env U) (m : ExtMap) (buf : List Byte) :
    (Header.parse env m buf).NoPanic ∧
    ∀ h, Header.parse env m buf = .ok h → 12 ≤ h.headerLen ∧ h.headerLen ≤ buf.length := by
  unfold Header.parse
  split
  · exact ⟨trivial, fun _ h => by cases h⟩
  · rw [bind_def, Res.idx_of_lt (by omega), bind_ok]
    split
    · exact ⟨trivial, fun _ h => by cases h⟩
    · rw [bind_def, Res.idx_of_lt (by omega), bind_ok, bind_def]
      cases h2 : rd16At buf 2 with
      | err => simp
      | panic => have := rd16At_np (buf := buf) (i := 2) (by omega); rw [h2] at this; exact this.elim
      | ok seq =>
        rw [bind_ok, bind_def]
        cases h3 : rd32At buf 4 with
        | err => simp
        | panic => have := rd32At_np (buf := buf) (i := 4) (by omega); rw [h3] at this; exact this.elim
        | ok ts =>
          rw [bind_ok, bind_def]
          cases h4 : rd32At buf 8 with
          | err => simp
          | panic => have := rd32At_np (buf := buf) (i := 8) (by omega); rw [h4] at this; exact this.elim
          | ok ssrc =>
            rw [bind_ok, bind_def, Res.from_of_le (by omega), bind_ok]
            split
            · exact ⟨trivial, fun _ h => by cases h⟩
            · rename_i hcs
              rw [bind_def]
              cases h5 : readCsrc ((buf[0]).val &&& 15) (List.drop 12 buf) with
              | err => simp
              | panic => have := readCsrc_np _ _ (Nat.not_lt.1 hcs); rw [h5] at this; exact this.elim
              | ok csrc =>
                rw [bind_ok, bind_def, Res.from_of_le (by omega), bind_ok, bind_def]
                have hl : (List.drop (4 * ((buf[0]).val &&& 15)) (List.drop 12 buf)).length ≤ buf.length - 12 := by
                  rw [List.length_drop, List.length_drop]; omega
                split
                · have hb := parseBlock_total env m (List.drop (4 * ((buf[0]).val &&& 15)) (List.drop 12 buf))
                  cases h6 : parseBlock env m (List.drop (4 * ((buf[0]).val &&& 15)) (List.drop 12 buf)) with
                  | err => simp
                  | panic => rw [h6] at hb; exact hb.1.elim
                  | ok r =>
                    obtain ⟨ev, rest⟩ := r
                    have := hb.2 ev rest h6
                    rw [bind_ok]
                    refine ⟨trivial, fun h hh => ?_⟩
                    simp only [pure_def, Res.ok.injEq] at hh
                    subst hh
                    simp only
                    omega
                · rw [bind_ok]
                  refine ⟨trivial, fun h hh => ?_⟩
                  simp only [pure_def, Res.ok.injEq] at hh
                  subst hh
                  simp only
                  omega

end Str0m.Rtp
