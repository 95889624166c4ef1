import Verif.Model.Vp8Desc
/-
  C63: patching a VP8 payload descriptor changes exactly the requested fields.
-/
namespace Str0m.Vp8Desc
open Str0m.Packet (bit)

/-- The picture id bytes of a descriptor. -/
inductive PidBytes where
  | absent
  | short (a : Byte)
  | long (a b : Byte)

def PidBytes.bytes : PidBytes → List Byte
  | .absent => []
  | .short a => [a]
  | .long a b => [a, b]

/-- The bytes are those the flags of `ext` announce. -/
def PidOk (ext : Byte) : PidBytes → Prop
  | .absent => bit ext 7 = 0
  | .short a => bit ext 7 = 1 ∧ bit a 7 = 0
  | .long a _ => bit ext 7 = 1 ∧ bit a 7 = 1

def PidBytes.desc (off : Nat) : PidBytes → Option Pid
  | .absent => none
  | .short a => some ⟨a.val % 128, off, false⟩
  | .long a b => some ⟨a.val % 128 * 256 + b.val, off, true⟩

def optList : Option Byte → List Byte
  | none => []
  | some b => [b]

def TlOk (ext : Byte) (t : Option Byte) : Prop := (bit ext 6 = 1 ∧ bit ext 5 = 1 ∧ t.isSome) ∨ (bit ext 6 = 0 ∧ t = none)

def KeyOk (ext : Byte) (k : Option Byte) : Prop := ((bit ext 5 = 1 ∨ bit ext 4 = 1) ∧ k.isSome) ∨ (bit ext 5 = 0 ∧ bit ext 4 = 0 ∧ k = none)

theorem bit01 (b : Byte) (k : Nat) : bit b k = 0 ∨ bit b k = 1 := by unfold bit; omega

/-- The descriptor of a laid out payload. -/
def descOf (ext : Byte) (p : PidBytes) (t k : Option Byte) : Desc :=
  ⟨2 + p.bytes.length + (optList t).length + (optList k).length, p.desc 2,
   t.map (fun b => ⟨b, 2 + p.bytes.length⟩),
   if bit ext 4 = 1 then k.map (fun b => ⟨b, 2 + p.bytes.length + (optList t).length⟩) else none⟩

theorem parse_x (b0 ext : Byte) (r : List Byte) (h0 : bit b0 7 = 1) :
    parse (b0 :: ext :: r) = (if bit ext 6 = 1 ∧ bit ext 5 ≠ 1 then .err .malformed
      else Res.bind (parsePid (b0 :: ext :: r) (bit ext 7 == 1) 2) fun p =>
        Res.bind (parseTl0 (b0 :: ext :: r) (bit ext 6 == 1) p.2) fun t =>
        Res.bind (parseKey (b0 :: ext :: r) (bit ext 5 == 1) (bit ext 4 == 1) t.2) fun k =>
        if k.2 ≥ (b0 :: ext :: r).length then .err .shortPayload else .ok ⟨k.2, p.1, t.1, k.1⟩) := by
  unfold parse parseFields
  dsimp only
  rw [if_pos h0, show readB (b0 :: ext :: r) 1 = .ok ext from rfl]
  simp only [Res.bind_def, Res.bind_ok, Res.pure_def]
  split
  · rfl
  · cases parsePid (b0 :: ext :: r) (bit ext 7 == 1) 2 with
    | err e => rfl
    | panic => rfl
    | ok p =>
      simp only [Res.bind_ok]
      cases parseTl0 (b0 :: ext :: r) (bit ext 6 == 1) p.2 with
      | err e => rfl
      | panic => rfl
      | ok t =>
        simp only [Res.bind_ok]
        cases parseKey (b0 :: ext :: r) (bit ext 5 == 1) (bit ext 4 == 1) t.2 with
        | err e => rfl
        | panic => rfl
        | ok k => rfl

/-- Parsing a laid out payload. -/
theorem parse_layout (b0 ext : Byte) (p : PidBytes) (t k : Option Byte) (c : Byte) (m : List Byte)
    (h0 : bit b0 7 = 1) (hp : PidOk ext p) (ht : TlOk ext t) (hk : KeyOk ext k) :
    parse (b0 :: ext :: (p.bytes ++ optList t ++ optList k ++ c :: m)) = .ok (descOf ext p t k) := by
  have e1 : ¬ (bit ext 6 = 1 ∧ bit ext 5 ≠ 1) := by
    rcases ht with h | h
    · simp [h.2.1]
    · simp [h.1]
  rw [parse_x _ _ _ h0, if_neg e1]
  have hpid : ∀ (tail : List Byte), parsePid (b0 :: ext :: (p.bytes ++ tail)) (bit ext 7 == 1) 2 = .ok (p.desc 2, 2 + p.bytes.length) := by
    intro tail
    cases p with
    | absent => simp [parsePid, show bit ext 7 = 0 from hp, PidBytes.desc, PidBytes.bytes]
    | short a =>
      obtain ⟨q1, q2⟩ := hp
      simp [parsePid, q1, q2, PidBytes.desc, PidBytes.bytes, readB]
    | long a b =>
      obtain ⟨q1, q2⟩ := hp
      simp [parsePid, q1, q2, PidBytes.desc, PidBytes.bytes, readB]
  rw [List.append_assoc, List.append_assoc, hpid, Res.bind_ok]
  have htl : ∀ (tail : List Byte), parseTl0 (b0 :: ext :: (p.bytes ++ (optList t ++ tail))) (bit ext 6 == 1) (2 + p.bytes.length)
      = .ok (t.map (fun b => ⟨b, 2 + p.bytes.length⟩), 2 + p.bytes.length + (optList t).length) := by
    intro tail
    rcases ht with ⟨h1, -, h3⟩ | ⟨h1, h2⟩
    · obtain ⟨b, rfl⟩ := Option.isSome_iff_exists.1 h3
      cases p <;> simp [parseTl0, h1, readB, PidBytes.bytes, optList]
    · subst h2
      simp [parseTl0, h1, optList]
  dsimp only
  rw [htl, Res.bind_ok]
  have hky : ∀ (tail : List Byte), parseKey (b0 :: ext :: (p.bytes ++ (optList t ++ (optList k ++ tail)))) (bit ext 5 == 1) (bit ext 4 == 1) (2 + p.bytes.length + (optList t).length)
      = .ok (if bit ext 4 = 1 then k.map (fun b => ⟨b, 2 + p.bytes.length + (optList t).length⟩) else none,
          2 + p.bytes.length + (optList t).length + (optList k).length) := by
    intro tail
    rcases hk with ⟨h1, h3⟩ | ⟨h1, h2, h3⟩
    · obtain ⟨b, rfl⟩ := Option.isSome_iff_exists.1 h3
      have hb : (bit ext 5 == 1 || bit ext 4 == 1) = true := by simpa using h1
      unfold parseKey
      rw [if_pos hb]
      have hr : readB (b0 :: ext :: (p.bytes ++ (optList t ++ (optList (some b) ++ tail)))) (2 + p.bytes.length + (optList t).length) = .ok b := by
        cases p <;> cases t <;> simp [readB, PidBytes.bytes, optList]
      rw [hr, Res.bind_def, Res.bind_ok]
      by_cases h4 : bit ext 4 = 1 <;> simp [h4, optList]
    · subst h3
      unfold parseKey
      rw [if_neg (by simp [h1, h2])]
      simp [optList]
  dsimp only
  rw [hky, Res.bind_ok]
  dsimp only
  rw [if_neg]
  · rfl
  · simp only [List.length_cons, List.length_append]
    omega

/-- Every accepted payload is laid out this way. -/
theorem parse_inv (payload : List Byte) (d : Desc) (h : parse payload = .ok d) :
    (∃ b0 c m, payload = b0 :: c :: m ∧ bit b0 7 = 0 ∧ d = ⟨1, none, none, none⟩) ∨
    (∃ b0 ext p t k c m, payload = b0 :: ext :: (PidBytes.bytes p ++ optList t ++ optList k ++ c :: m) ∧ bit b0 7 = 1 ∧
      PidOk ext p ∧ TlOk ext t ∧ KeyOk ext k ∧ d = descOf ext p t k) := by
  cases payload with
  | nil => cases h
  | cons b0 rest =>
    rcases bit01 b0 7 with h0 | h0
    · left
      simp only [parse, parseFields, h0] at h
      cases rest with
      | nil => simp at h
      | cons c m =>
        simp at h
        exact ⟨b0, c, m, rfl, h0, h.symm⟩
    · right
      have hlay : ∀ (ext : Byte) (p : PidBytes) (t k : Option Byte) (c : Byte) (m : List Byte),
          rest = ext :: (PidBytes.bytes p ++ optList t ++ optList k ++ c :: m) → PidOk ext p → TlOk ext t → KeyOk ext k →
          (∃ b0' ext p t k c m, b0 :: rest = b0' :: ext :: (PidBytes.bytes p ++ optList t ++ optList k ++ c :: m) ∧ bit b0' 7 = 1 ∧
            PidOk ext p ∧ TlOk ext t ∧ KeyOk ext k ∧ d = descOf ext p t k) := by
        intro ext p t k c m hr hp ht hk
        subst hr
        have := parse_layout b0 ext p t k c m h0 hp ht hk
        rw [this] at h
        cases h
        exact ⟨b0, ext, p, t, k, c, m, rfl, h0, hp, ht, hk, rfl⟩
      cases rest with
      | nil => simp [parse, parseFields, h0, readB] at h
      | cons ext r1 =>
        have hmal : ¬ (bit ext 6 = 1 ∧ bit ext 5 ≠ 1) := by
          intro hm
          rw [parse_x _ _ _ h0, if_pos hm] at h
          cases h
        -- the payload has at least as many bytes as the flags ask for
        have hcut : ∃ p t k c m, r1 = PidBytes.bytes p ++ optList t ++ optList k ++ c :: m ∧ PidOk ext p ∧ TlOk ext t ∧ KeyOk ext k := by
          rw [parse_x _ _ _ h0, if_neg hmal] at h
          -- picture id
          have hP : ∃ p r2 , r1 = PidBytes.bytes p ++ r2 ∧ PidOk ext p ∧
              parsePid (b0 :: ext :: r1) (bit ext 7 == 1) 2 = .ok (p.desc 2, 2 + p.bytes.length) := by
            rcases bit01 ext 7 with h7 | h7
            · exact ⟨.absent, r1, rfl, h7, by simp [parsePid, h7, PidBytes.desc, PidBytes.bytes]⟩
            · cases r1 with
              | nil => simp [parsePid, h7, readB] at h
              | cons a r2 =>
                rcases bit01 a 7 with ha | ha
                · exact ⟨.short a, r2, rfl, ⟨h7, ha⟩, by simp [parsePid, h7, ha, readB, PidBytes.desc, PidBytes.bytes]⟩
                · cases r2 with
                  | nil => simp [parsePid, h7, ha, readB] at h
                  | cons b r3 =>
                    exact ⟨.long a b, r3, rfl, ⟨h7, ha⟩, by simp [parsePid, h7, ha, readB, PidBytes.desc, PidBytes.bytes]⟩
          obtain ⟨p, r2, hr1, hpok, hpp⟩ := hP
          rw [hpp, Res.bind_ok] at h
          dsimp only at h
          have hT : ∃ t r3, r2 = optList t ++ r3 ∧ TlOk ext t ∧
              parseTl0 (b0 :: ext :: r1) (bit ext 6 == 1) (2 + p.bytes.length)
                = .ok (t.map (fun b => ⟨b, 2 + p.bytes.length⟩), 2 + p.bytes.length + (optList t).length) := by
            rcases bit01 ext 6 with h6 | h6
            · exact ⟨none, r2, rfl, Or.inr ⟨h6, rfl⟩, by simp [parseTl0, h6, optList]⟩
            · have h5 : bit ext 5 = 1 := by
                rcases bit01 ext 5 with h5 | h5
                · exact absurd ⟨h6, by omega⟩ hmal
                · exact h5
              cases r2 with
              | nil =>
                exfalso
                subst hr1
                have : parseTl0 (b0 :: ext :: (p.bytes ++ [])) (bit ext 6 == 1) (2 + p.bytes.length) = .err .shortPayload := by
                  cases p <;> simp [parseTl0, h6, readB, PidBytes.bytes]
                rw [this] at h
                cases h
              | cons a r3 =>
                subst hr1
                refine ⟨some a, r3, rfl, Or.inl ⟨h6, h5, rfl⟩, ?_⟩
                cases p <;> simp [parseTl0, h6, readB, PidBytes.bytes, optList]
          obtain ⟨t, r3, hr2, htok, htt⟩ := hT
          rw [htt, Res.bind_ok] at h
          dsimp only at h
          subst hr1
          subst hr2
          have hK : ∃ k r4, r3 = optList k ++ r4 ∧ KeyOk ext k := by
            by_cases h45 : bit ext 5 = 1 ∨ bit ext 4 = 1
            · cases r3 with
              | nil =>
                exfalso
                have hb : (bit ext 5 == 1 || bit ext 4 == 1) = true := by simpa using h45
                have : parseKey (b0 :: ext :: (p.bytes ++ (optList t ++ []))) (bit ext 5 == 1) (bit ext 4 == 1) (2 + p.bytes.length + (optList t).length) = .err .shortPayload := by
                  unfold parseKey
                  rw [if_pos hb]
                  cases p <;> cases t <;> simp [readB, PidBytes.bytes, optList]
                rw [this] at h
                cases h
              | cons a r4 => exact ⟨some a, r4, rfl, Or.inl ⟨h45, rfl⟩⟩
            · have h5 := bit01 ext 5
              have h4 := bit01 ext 4
              refine ⟨none, r3, rfl, Or.inr ⟨by omega, by omega, rfl⟩⟩
          obtain ⟨k, r4, hr3, hkok⟩ := hK
          subst hr3
          cases r4 with
          | cons c m => exact ⟨p, t, k, c, m, by simp, hpok, htok, hkok⟩
          | nil =>
            exfalso
            rcases hkok with ⟨h1, h3⟩ | ⟨h1, h2, h3⟩
            · obtain ⟨b, rfl⟩ := Option.isSome_iff_exists.1 h3
              have hb : (bit ext 5 == 1 || bit ext 4 == 1) = true := by simpa using h1
              have hr : readB (b0 :: ext :: (p.bytes ++ (optList t ++ (optList (some b) ++ [])))) (2 + p.bytes.length + (optList t).length) = .ok b := by
                cases p <;> cases t <;> simp [readB, PidBytes.bytes, optList]
              unfold parseKey at h
              rw [if_pos hb, hr] at h
              simp only [Res.bind_def, Res.bind_ok, Res.pure_def] at h
              rw [if_pos (by simp only [List.length_cons, List.length_append, optList, List.length_nil]; omega)] at h
              cases h
            · subst h3
              unfold parseKey at h
              rw [if_neg (by simp [h1, h2])] at h
              simp only [Res.bind_ok] at h
              rw [if_pos (by simp only [List.length_cons, List.length_append, optList, List.length_nil]; omega)] at h
              cases h
        obtain ⟨p, t, k, c, m, hr, hp, ht, hk⟩ := hcut
        exact hlay ext p t k c m (by rw [hr]) hp ht hk

/-! ### The property -/

/-- What a caller may ask for: the field is there and the value fits it. -/
def Fits (d : Desc) (pid : Option Nat) (tl0 key : Option Byte) : Prop :=
  (∀ v, pid = some v → ∃ q, d.pid = some q ∧ v < 2 ^ 15 ∧ (q.is15 = false → v < 2 ^ 7)) ∧
  (∀ v, tl0 = some v → d.tl0PicIdx.isSome) ∧ (∀ v, key = some v → d.keyIdx.isSome ∧ v.val < 32)

theorem push_ok (p : Patch) (o : Nat) (b : Byte) (h : p.length < 4) (h' : o ≤ 255) : push p o b = .ok (p ++ [(o, b)]) := if_pos ⟨h, h'⟩

/-- The replaced picture id bytes. -/
def newPid (p : PidBytes) : Option Nat → PidBytes
  | none => p
  | some v => match p with
    | .absent => .absent
    | .short _ => .short (u8 v)
    | .long _ _ => .long (u8 (0x80 + v / 256 % 128)) (u8 v)

def newTl (t : Option Byte) : Option Byte → Option Byte
  | none => t
  | some v => t.map (fun _ => v)

def newKey (k : Option Byte) : Option Byte → Option Byte
  | none => k
  | some v => k.map (fun b => u8 (b.val / 32 * 32 + v.val))

/-- Building and applying a patch on a laid out payload. -/
theorem patch_layout (b0 ext : Byte) (p : PidBytes) (t k : Option Byte) (c : Byte) (m : List Byte) (pid : Option Nat) (tl0 key : Option Byte)
    (hf : Fits (descOf ext p t k) pid tl0 key) :
    ∃ patch, build (descOf ext p t k) pid tl0 key = .ok patch ∧
      copyTo patch (b0 :: ext :: (p.bytes ++ optList t ++ optList k ++ c :: m))
        = .ok (b0 :: ext :: ((newPid p pid).bytes ++ optList (newTl t tl0) ++ optList (newKey k key) ++ c :: m)) := by
  obtain ⟨f1, f2, f3⟩ := hf
  have g1 : ∀ v, pid = some v → ¬ v > 0x7fff := fun v hv => by obtain ⟨q, -, h, -⟩ := f1 v hv; omega
  have g3 : ∀ v, key = some v → ¬ v.val > 0x1f := fun v hv => by have := (f3 v hv).2; omega
  have g4 : ∀ v, key = some v → bit ext 4 = 1 ∧ k.isSome := fun v hv => by
    have := (f3 v hv).1
    unfold Desc.keyIdx descOf at this
    by_cases h4 : bit ext 4 = 1
    · refine ⟨h4, ?_⟩
      simpa [h4] using this
    · simp [h4] at this
  have g2 : ∀ v, tl0 = some v → t.isSome := fun v hv => by
    have := f2 v hv
    simpa [Desc.tl0PicIdx, descOf] using this
  have gs : ∀ v, pid = some v → ∀ a, p = .short a → ¬ v > 0x7f := fun v hv a ha => by
    obtain ⟨q, hq, -, h⟩ := f1 v hv
    subst ha
    have : q.is15 = false := by
      simp only [descOf, PidBytes.desc, Option.some.injEq] at hq
      rw [← hq]
    have := h this
    omega
  have ga : ∀ v, pid = some v → p ≠ .absent := fun v hv ha => by
    obtain ⟨q, hq, -, -⟩ := f1 v hv
    subst ha
    simp [descOf, PidBytes.desc] at hq
  clear f1 f2 f3
  cases pid with
  | none =>
    cases tl0 <;> cases key <;> cases p <;> cases t <;> cases k <;>
      simp_all [build, buildPid, buildTl0, buildKey, push, copyTo, apply, descOf, PidBytes.desc, PidBytes.bytes, optList, newPid, newTl, newKey, Nat.not_lt_of_le]
  | some v =>
    have g1 := g1 v rfl
    have ga := ga v rfl
    cases p with
    | absent => exact absurd rfl ga
    | short a =>
      have gs := gs v rfl a rfl
      have e1 : ¬ (0x7fff < v) := g1
      have e2 : ¬ (0x7f < v) := gs
      clear g1 ga gs
      cases tl0 <;> cases key <;> cases t <;> cases k <;>
        simp_all [build, buildPid, buildTl0, buildKey, push, copyTo, apply, descOf, PidBytes.desc, PidBytes.bytes, optList, newPid, newTl, newKey, Nat.not_lt_of_le]
    | long a b =>
      have e1 : ¬ (0x7fff < v) := g1
      clear g1 ga gs
      cases tl0 <;> cases key <;> cases t <;> cases k <;>
        simp_all [build, buildPid, buildTl0, buildKey, push, copyTo, apply, descOf, PidBytes.desc, PidBytes.bytes, optList, newPid, newTl, newKey, Nat.not_lt_of_le]

theorem apply_changes : ∀ (patch : Patch) (dst out : List Byte), apply patch dst = .ok out →
    out.length = dst.length ∧ ∀ (i : Nat), out[i]? ≠ dst[i]? → ∃ b, (i, b) ∈ patch := by
  intro patch
  induction patch with
  | nil => intro dst out h; cases h; exact ⟨rfl, fun i hi => absurd rfl hi⟩
  | cons a rest ih =>
    intro dst out h
    obtain ⟨o, b⟩ := a
    unfold apply at h
    split at h
    · obtain ⟨h1, h2⟩ := ih _ _ h
      refine ⟨by rw [h1, List.length_set], fun i hi => ?_⟩
      by_cases ho : o = i
      · exact ⟨b, by rw [ho]; simp⟩
      · have : (dst.set o b)[i]? = dst[i]? := by rw [List.getElem?_set_ne ho]
        rw [← this] at hi
        obtain ⟨c, hc⟩ := h2 i hi
        exact ⟨c, List.mem_cons_of_mem _ hc⟩
    · cases h

theorem push_inv {p q : Patch} {o : Nat} {b : Byte} (h : push p o b = .ok q) : q = p ++ [(o, b)] := by
  unfold push at h
  split at h
  · cases h; rfl
  · cases h

/-- A built patch only touches requested fields. -/
theorem build_touches (d : Desc) (pid : Option Nat) (tl0 key : Option Byte) (patch : Patch) (h : build d pid tl0 key = .ok patch) :
    ∀ i b, (i, b) ∈ patch →
      (pid.isSome ∧ ∃ q, d.pid = some q ∧ (i = q.offset ∨ (q.is15 = true ∧ i = q.offset + 1))) ∨
      (tl0.isSome ∧ ∃ q, d.tl0 = some q ∧ i = q.offset) ∨ (key.isSome ∧ ∃ q, d.key = some q ∧ i = q.offset) := by
  unfold build at h
  cases h1 : buildPid d pid [] with
  | err | panic => rw [h1] at h; cases h
  | ok p1 =>
  rw [h1, Res.bind_def, Res.bind_ok] at h
  cases h2 : buildTl0 d tl0 p1 with
  | err | panic => rw [h2] at h; cases h
  | ok p2 =>
  rw [h2, Res.bind_def, Res.bind_ok] at h
  have k1 : ∀ i b, (i, b) ∈ p1 → (pid.isSome ∧ ∃ q, d.pid = some q ∧ (i = q.offset ∨ (q.is15 = true ∧ i = q.offset + 1))) := by
    intro i b hm
    unfold buildPid at h1
    cases pid with
    | none => cases h1; cases hm
    | some v =>
      dsimp only at h1
      split at h1
      · cases h1
      · rename_i q hq
        split at h1
        · cases h1
        · split at h1
          · cases h1
          · split at h1
            · rename_i h15
              cases h3 : push [] q.offset (u8 (0x80 + v / 256 % 128)) with
              | err | panic => rw [h3] at h1; cases h1
              | ok p0 =>
                rw [h3, Res.bind_def, Res.bind_ok] at h1
                have e1 := push_inv h3
                have e2 := push_inv h1
                subst e1 e2
                simp only [List.nil_append, List.cons_append, List.mem_cons, Prod.mk.injEq, List.not_mem_nil, or_false] at hm
                rcases hm with hm | hm
                · exact ⟨rfl, q, hq, Or.inl hm.1⟩
                · exact ⟨rfl, q, hq, Or.inr ⟨h15, hm.1⟩⟩
            · have e2 := push_inv h1
              subst e2
              simp only [List.nil_append, List.mem_cons, Prod.mk.injEq, List.not_mem_nil, or_false] at hm
              exact ⟨rfl, q, hq, Or.inl hm.1⟩
  have k2 : ∀ i b, (i, b) ∈ p2 → (i, b) ∈ p1 ∨ (tl0.isSome ∧ ∃ q, d.tl0 = some q ∧ i = q.offset) := by
    intro i b hm
    unfold buildTl0 at h2
    split at h2
    · cases h2; exact Or.inl hm
    · split at h2
      · cases h2
      · rename_i v q hq
        have e := push_inv h2
        subst e
        rcases List.mem_append.1 hm with hm | hm
        · exact Or.inl hm
        · simp only [List.mem_cons, Prod.mk.injEq, List.not_mem_nil, or_false] at hm
          exact Or.inr ⟨rfl, q, hq, hm.1⟩
  intro i b hm
  have k3 : (i, b) ∈ p2 ∨ (key.isSome ∧ ∃ q, d.key = some q ∧ i = q.offset) := by
    unfold buildKey at h
    split at h
    · cases h; exact Or.inl hm
    · split at h
      · cases h
      · rename_i v q hq
        split at h
        · cases h
        · have e := push_inv h
          subst e
          rcases List.mem_append.1 hm with hm | hm
          · exact Or.inl hm
          · simp only [List.mem_cons, Prod.mk.injEq, List.not_mem_nil, or_false] at hm
            exact Or.inr ⟨rfl, q, hq, hm.1⟩
  rcases k3 with hm | hk
  · rcases k2 i b hm with hm | ht
    · exact Or.inl (k1 i b hm)
    · exact Or.inr (Or.inl ht)
  · exact Or.inr (Or.inr hk)

/-- A request that does not fit is an error. -/
theorem build_fits (d : Desc) (pid : Option Nat) (tl0 key : Option Byte) (patch : Patch) (h : build d pid tl0 key = .ok patch) :
    Fits d pid tl0 key := by
  unfold build at h
  cases h1 : buildPid d pid [] with
  | err | panic => rw [h1] at h; cases h
  | ok p1 =>
  rw [h1, Res.bind_def, Res.bind_ok] at h
  cases h2 : buildTl0 d tl0 p1 with
  | err | panic => rw [h2] at h; cases h
  | ok p2 =>
  rw [h2, Res.bind_def, Res.bind_ok] at h
  refine ⟨fun v hv => ?_, fun v hv => ?_, fun v hv => ?_⟩
  · subst hv
    unfold buildPid at h1
    dsimp only at h1
    split at h1
    · cases h1
    · rename_i q hq
      split at h1
      · cases h1
      · rename_i hn
        split at h1
        · cases h1
        · rename_i hs
          refine ⟨q, hq, by omega, fun h15 => ?_⟩
          have : ¬ v > 0x7f := fun hv => hs ⟨h15, hv⟩
          omega
  · subst hv
    unfold buildTl0 at h2
    dsimp only at h2
    split at h2
    · cases h2
    · rename_i q hq
      simp [Desc.tl0PicIdx, hq]
  · subst hv
    unfold buildKey at h
    dsimp only at h
    split at h
    · cases h
    · rename_i q hq
      split at h
      · cases h
      · exact ⟨by simp [Desc.keyIdx, hq], by omega⟩

theorem newPid_ok (ext : Byte) (p : PidBytes) (pid : Option Nat) (hp : PidOk ext p)
    (hf : ∀ v, pid = some v → ∃ q, p.desc 2 = some q ∧ v < 2 ^ 15 ∧ (q.is15 = false → v < 2 ^ 7)) :
    PidOk ext (newPid p pid) ∧ (newPid p pid).bytes.length = p.bytes.length ∧
      ((newPid p pid).desc 2).map (·.value) = (pid <|> (p.desc 2).map (·.value)) ∧
      ((newPid p pid).desc 2).map (·.is15) = (p.desc 2).map (·.is15) := by
  cases pid with
  | none => exact ⟨hp, rfl, rfl, rfl⟩
  | some v =>
    obtain ⟨q, h1, h2, h3⟩ := hf v rfl
    cases p with
    | absent => cases h1
    | short a =>
      cases h1
      have hv := h3 rfl
      refine ⟨⟨hp.1, ?_⟩, rfl, ?_, rfl⟩
      · show (u8 v).val / 2 ^ 7 % 2 = 0
        rw [u8_val]; omega
      · show some ((u8 v).val % 128) = some v
        rw [u8_val]; congr 1; omega
    | long a b =>
      cases h1
      refine ⟨⟨hp.1, ?_⟩, by simp [newPid, PidBytes.bytes], ?_, by simp [newPid, PidBytes.desc]⟩
      · show (u8 (0x80 + v / 256 % 128)).val / 2 ^ 7 % 2 = 1
        rw [u8_val]; omega
      · show some ((u8 (0x80 + v / 256 % 128)).val % 128 * 256 + (u8 v).val) = some v
        rw [u8_val, u8_val]; congr 1; omega

/-- C63.  For every payload whose descriptor parses, and every request: building the patch succeeds
exactly when each requested field is present and each value fits; then applying it to the payload
succeeds, keeps the length, changes no byte outside the requested fields, and the result parses again
with the requested values, every other value as before, the same picture id width, TID and Y bits, the
same media and the same key frame indication. -/
theorem C63_patch (payload : List Byte) (d : Desc) (hd : parse payload = .ok d) (pid : Option Nat) (tl0 key : Option Byte) :
    ((∃ patch, build d pid tl0 key = .ok patch) ↔ Fits d pid tl0 key) ∧ (build d pid tl0 key).NoPanic ∧
    ∀ patch, build d pid tl0 key = .ok patch → ∃ out d', copyTo patch payload = .ok out ∧ out.length = payload.length ∧
      parse out = .ok d' ∧
      d'.pictureId = (pid <|> d.pictureId) ∧ d'.tl0PicIdx = (tl0.map (·.val) <|> d.tl0PicIdx) ∧ d'.keyIdx = (key.map (·.val) <|> d.keyIdx) ∧
      d'.payloadOffset = d.payloadOffset ∧ out.drop d.payloadOffset = payload.drop d.payloadOffset ∧
      d'.pid.map (·.is15) = d.pid.map (·.is15) ∧ d'.key.map (·.value.val / 32) = d.key.map (·.value.val / 32) ∧
      d'.startsKeyframe out = d.startsKeyframe payload ∧
      ∀ i, out[i]? ≠ payload[i]? →
        (pid.isSome ∧ ∃ q, d.pid = some q ∧ (i = q.offset ∨ (q.is15 = true ∧ i = q.offset + 1))) ∨
        (tl0.isSome ∧ ∃ q, d.tl0 = some q ∧ i = q.offset) ∨ (key.isSome ∧ ∃ q, d.key = some q ∧ i = q.offset) := by
  have hbuild : Fits d pid tl0 key → ∃ patch, build d pid tl0 key = .ok patch := by
    intro hf
    rcases parse_inv payload d hd with ⟨b0, c, m, rfl, h0, rfl⟩ | ⟨b0, ext, p, t, k, c, m, rfl, h0, hp, ht, hk, rfl⟩
    · obtain ⟨f1, f2, f3⟩ := hf
      cases pid with
      | some v => obtain ⟨q, hq, -⟩ := f1 v rfl; cases hq
      | none => cases tl0 with
        | some v => have := f2 v rfl; cases this
        | none => cases key with
          | some v => have := (f3 v rfl).1; cases this
          | none => exact ⟨[], rfl⟩
    · obtain ⟨patch, h, -⟩ := patch_layout b0 ext p t k c m pid tl0 key hf
      exact ⟨patch, h⟩
  refine ⟨⟨fun ⟨patch, h⟩ => build_fits d pid tl0 key patch h, hbuild⟩, ?_, ?_⟩
  · -- offsets are small and at most four bytes are pushed
    have hoff : (∀ q, d.pid = some q → q.offset ≤ 254) ∧ (∀ q, d.tl0 = some q → q.offset ≤ 255) ∧ (∀ q, d.key = some q → q.offset ≤ 255) := by
      rcases parse_inv payload d hd with ⟨b0, c, m, rfl, h0, rfl⟩ | ⟨b0, ext, p, t, k, c, m, rfl, h0, hp, ht, hk, rfl⟩
      · exact ⟨(fun q h => by cases h), (fun q h => by cases h), (fun q h => by cases h)⟩
      · refine ⟨fun q h => ?_, fun q h => ?_, fun q h => ?_⟩
        · cases p <;> simp [descOf, PidBytes.desc] at h <;> rw [← h] <;> simp
        · have hb : p.bytes.length ≤ 2 := by cases p <;> simp [PidBytes.bytes]
          cases t with
          | none => simp [descOf] at h
          | some b => simp [descOf] at h; rw [← h]; show 2 + p.bytes.length ≤ 255; omega
        · have hb : p.bytes.length ≤ 2 := by cases p <;> simp [PidBytes.bytes]
          have hb2 : (optList t).length ≤ 1 := by cases t <;> simp [optList]
          cases k with
          | none => simp [descOf] at h
          | some b =>
            simp only [descOf, Option.map_some] at h
            split at h
            · cases h; show 2 + p.bytes.length + (optList t).length ≤ 255; omega
            · cases h
    obtain ⟨o1, o2, o3⟩ := hoff
    have n1 : (buildPid d pid []).NoPanic ∧ ∀ p1, buildPid d pid [] = .ok p1 → p1.length ≤ 2 := by
      unfold buildPid
      split
      · exact ⟨trivial, fun p1 h => by cases h; simp⟩
      · split
        · exact ⟨trivial, fun p1 h => by cases h⟩
        · rename_i v q hq
          have := o1 q hq
          split
          · exact ⟨trivial, fun p1 h => by cases h⟩
          · split
            · exact ⟨trivial, fun p1 h => by cases h⟩
            · split
              · rw [push_ok _ _ _ (by simp) (by omega), Res.bind_def, Res.bind_ok, push_ok _ _ _ (by simp) (by omega)]
                exact ⟨trivial, fun p1 h => by cases h; simp⟩
              · rw [push_ok _ _ _ (by simp) (by omega)]
                exact ⟨trivial, fun p1 h => by cases h; simp⟩
    unfold build
    refine Res.NoPanic.bind n1.1 (fun p1 h1 => ?_)
    have l1 := n1.2 p1 h1
    have n2 : (buildTl0 d tl0 p1).NoPanic ∧ ∀ p2, buildTl0 d tl0 p1 = .ok p2 → p2.length ≤ 3 := by
      unfold buildTl0
      split
      · exact ⟨trivial, fun p2 h => by cases h; omega⟩
      · split
        · exact ⟨trivial, fun p1 h => by cases h⟩
        · rename_i v q hq
          rw [push_ok _ _ _ (by omega) (o2 q hq)]
          exact ⟨trivial, fun p2 h => by cases h; simp; omega⟩
    refine Res.NoPanic.bind n2.1 (fun p2 h2 => ?_)
    have l2 := n2.2 p2 h2
    unfold buildKey
    split
    · trivial
    · split
      · trivial
      · rename_i v q hq
        split
        · trivial
        · rw [push_ok _ _ _ (by omega) (o3 q hq)]
          trivial
  · intro patch hb
    have hf := build_fits d pid tl0 key patch hb
    have hlocal : ∀ out, copyTo patch payload = .ok out → out.length = payload.length ∧ ∀ i, out[i]? ≠ payload[i]? →
        (pid.isSome ∧ ∃ q, d.pid = some q ∧ (i = q.offset ∨ (q.is15 = true ∧ i = q.offset + 1))) ∨
        (tl0.isSome ∧ ∃ q, d.tl0 = some q ∧ i = q.offset) ∨ (key.isSome ∧ ∃ q, d.key = some q ∧ i = q.offset) := by
      intro out ho
      obtain ⟨a1, a2⟩ := apply_changes patch payload out ho
      refine ⟨a1, fun i hi => ?_⟩
      obtain ⟨b, hm⟩ := a2 i hi
      exact build_touches d pid tl0 key patch hb i b hm
    rcases parse_inv payload d hd with ⟨b0, c, m, rfl, h0, rfl⟩ | ⟨b0, ext, p, t, k, c, m, rfl, h0, hp, ht, hk, rfl⟩
    · obtain ⟨f1, f2, f3⟩ := hf
      cases pid with
      | some v => obtain ⟨q, hq, -⟩ := f1 v rfl; cases hq
      | none => cases tl0 with
        | some v => have := f2 v rfl; cases this
        | none => cases key with
          | some v => have := (f3 v rfl).1; cases this
          | none =>
            cases hb
            exact ⟨b0 :: c :: m, _, rfl, rfl, hd, rfl, rfl, rfl, rfl, rfl, rfl, rfl, rfl, fun i hi => absurd rfl hi⟩
    · obtain ⟨patch', hb', ho⟩ := patch_layout b0 ext p t k c m pid tl0 key hf
      rw [hb] at hb'
      cases hb'
      obtain ⟨e1, e2, e3, e4⟩ := newPid_ok ext p pid hp hf.1
      have t1 : TlOk ext (newTl t tl0) ∧ (optList (newTl t tl0)).length = (optList t).length ∧
          (newTl t tl0).map (·.val) = (tl0.map (·.val) <|> t.map (·.val)) := by
        cases tl0 with
        | none => exact ⟨ht, rfl, rfl⟩
        | some v =>
          have := hf.2.1 v rfl
          cases t with
          | none => cases this
          | some b =>
            refine ⟨?_, rfl, rfl⟩
            rcases ht with h | h
            · exact Or.inl h
            · cases h.2
      have k1 : KeyOk ext (newKey k key) ∧ (optList (newKey k key)).length = (optList k).length := by
        cases key with
        | none => exact ⟨hk, rfl⟩
        | some v =>
          cases k with
          | none => exact ⟨hk, rfl⟩
          | some b =>
            refine ⟨?_, rfl⟩
            rcases hk with h | h
            · exact Or.inl h
            · cases h.2.2
      have hpar := parse_layout b0 ext (newPid p pid) (newTl t tl0) (newKey k key) c m h0 e1 t1.1 k1.1
      obtain ⟨a1, a2⟩ := hlocal _ ho
      have hoff : (descOf ext (newPid p pid) (newTl t tl0) (newKey k key)).payloadOffset = (descOf ext p t k).payloadOffset := by
        simp only [descOf, e2, t1.2.1, k1.2]
      have hdrop : ∀ (x y z : List Byte), List.drop (2 + x.length + y.length + z.length) (b0 :: ext :: (x ++ y ++ z ++ c :: m)) = c :: m := by
        intro x y z
        rw [show b0 :: ext :: (x ++ y ++ z ++ c :: m) = ([b0, ext] ++ x ++ y ++ z) ++ c :: m by simp]
        rw [show 2 + x.length + y.length + z.length = ([b0, ext] ++ x ++ y ++ z).length by simp; omega]
        exact List.drop_left ..
      have hd1 : List.drop (descOf ext p t k).payloadOffset (b0 :: ext :: (p.bytes ++ optList t ++ optList k ++ c :: m)) = c :: m := hdrop _ _ _
      have hd2 : List.drop (descOf ext p t k).payloadOffset (b0 :: ext :: ((newPid p pid).bytes ++ optList (newTl t tl0) ++ optList (newKey k key) ++ c :: m)) = c :: m := by
        rw [← hoff]; exact hdrop _ _ _
      refine ⟨_, _, ho, a1, hpar, ?_, ?_, ?_, hoff, by rw [hd1, hd2], e4, ?_, ?_, a2⟩
      · show ((newPid p pid).desc 2).map (·.value) = _
        rw [e3]; rfl
      · show ((newTl t tl0).map (fun b => (⟨b, 2 + (newPid p pid).bytes.length⟩ : Field))).map (·.value.val) = (_ <|> (t.map (fun b => (⟨b, 2 + p.bytes.length⟩ : Field))).map (·.value.val))
        rw [Option.map_map, Option.map_map]
        exact t1.2.2
      · unfold Desc.keyIdx descOf
        dsimp only
        by_cases h4 : bit ext 4 = 1
        · rw [if_pos h4, if_pos h4]
          cases key with
          | none => simp [newKey, Option.map_map, Function.comp_def]
          | some v =>
            obtain ⟨g1, g2⟩ := hf.2.2 v rfl
            cases k with
            | none => simp [Desc.keyIdx, descOf] at g1
            | some b =>
              simp only [newKey, Option.map_some, u8_val]
              show some _ = some v.val
              congr 1
              have := b.isLt
              omega
        · rw [if_neg h4, if_neg h4]
          cases key with
          | none => rfl
          | some v =>
            obtain ⟨g1, g2⟩ := hf.2.2 v rfl
            simp [Desc.keyIdx, descOf, h4] at g1
      · unfold descOf
        dsimp only
        by_cases h4 : bit ext 4 = 1
        · rw [if_pos h4, if_pos h4]
          cases key with
          | none => simp [newKey, Option.map_map, Function.comp_def]
          | some v =>
            obtain ⟨g1, g2⟩ := hf.2.2 v rfl
            cases k with
            | none => rfl
            | some b =>
              simp only [newKey, Option.map_some, u8_val]
              congr 1
              have := b.isLt
              omega
        · rw [if_neg h4, if_neg h4]
      · unfold Desc.startsKeyframe
        dsimp only
        rw [hoff]
        have g : ∀ (l : List Byte) (n : Nat), List.drop n l = c :: m → l[n]? = some c := by
          intro l n h
          have := congrArg (fun x => x[0]?) h
          simpa using this
        rw [g _ _ hd1, g _ _ hd2]

example : ∃ d, parse [0x90, 0xf0, 0x81, 0x02, 0x07, 0x45, 0xab] = .ok d ∧ Fits d (some 0x1234) (some 9) (some 31) :=
  ⟨⟨6, some ⟨0x102, 2, true⟩, some ⟨7, 4⟩, some ⟨0x45, 5⟩⟩, by decide +kernel, by
    refine ⟨fun v h => ⟨_, rfl, ?_, fun h => by cases h⟩, fun v h => rfl, fun v h => ⟨rfl, ?_⟩⟩
    · cases h; decide
    · cases h; decide⟩

example : copyTo [(2, 0x92), (3, 0x34), (4, 9), (5, 0x5f)] [0x90, 0xf0, 0x81, 0x02, 0x07, 0x45, 0xab]
    = .ok [0x90, 0xf0, 0x92, 0x34, 9, 0x5f, 0xab] := by decide +kernel

/-- C63, the limit of the contract: a patch built from one payload's descriptor panics when the packet
it is attached to is too short (nothing between `RtpWrite::vp8_patch` and serialization checks). -/
theorem C63_foreign_payload_violation : ∃ payload d patch, parse payload = .ok d ∧ build d (some 5) none none = .ok patch ∧
    copyTo patch [0x10, 0x00] = .panic :=
  ⟨[0x90, 0x80, 0x01, 0xab], ⟨3, some ⟨1, 2, false⟩, none, none⟩, [(2, 5)], by decide +kernel, by decide +kernel, by decide +kernel⟩

end Str0m.Vp8Desc
