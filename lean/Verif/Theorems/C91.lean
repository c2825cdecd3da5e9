import Verif.Lemmas.Browser
import Verif.Lemmas.Round64
import Verif.Model.F64Bits
import Verif.Theorems.C70
/-!
# C91: subscribers in the browser see the devices

The generated readers proto/gpsgen.ts and proto/gpsgen_pb.js on the bytes that Go writes, for every packet with 64-bit
integers and less than 4 GB. TypeScript reads every packet as it was sent. JavaScript reads every integer as the nearest
double and everything else as it was sent, so the claim fails for integers above 2^53 and holds below. Fields of a later
version are skipped by both. So what C70 says about subscribers in Go holds for subscribers in the browser.
-/

namespace GpsGen
variable {F : Type}

namespace C91

/-! ## Specification -/

/-- An integer that every double can hold. -/
def Exact (i : Int) : Prop := |i| ≤ 2 ^ 53

/-- A packet that can be sent: 64-bit integers, and lengths of 32 bits. -/
def Sendable [WireFloat F] (m : PacketPb F) : Prop :=
  m.AllInts Int64Ok ∧ (protoMarshal encPacketPb m).length < 2 ^ 32

/-- The claim: both readers read every packet as it was sent. -/
def Claim (F : Type) [WireFloat F] : Prop := ∀ R ∈ [tsRuntime, jsRuntime], ∀ m : PacketPb F, Sendable m →
  browserPacket R (protoMarshal encPacketPb m) = some m

/-! ## Numbers -/

theorem jsNum_exact (i : Int) (h : Exact i) : jsNum i = i := by
  unfold jsNum
  rw [Round64.rndQ_int i h]
  exact Rat.floor_intCast i

/-- **C91, numbers.** The number of a 64-bit integer is the double nearest to it, itself an integer. -/
theorem jsNum_nearest (i : Int) (h : Int64Ok i) : (jsNum i : ℚ) = Round64.rndQ i ∧ |jsNum i - i| ≤ 1024 := by
  have he : (jsNum i : ℚ) = Round64.rndQ i := by
    by_cases hs : |i| ≤ 2 ^ 53
    · rw [jsNum_exact i hs, Round64.rndQ_int i hs]
    · have hi : (i : ℚ) ≠ 0 := by
        intro hc
        have : i = 0 := by exact_mod_cast hc
        rw [this] at hs
        norm_num at hs
      have hu : 0 ≤ Round64.uexp (i : ℚ) := by
        have h1 := (Round64.ilog_spec hi).2
        by_contra hc
        have hlt : Round64.ilog (i : ℚ) + 1 ≤ 52 := by
          unfold Round64.uexp at hc
          omega
        have h2 : (2 : ℚ) ^ (Round64.ilog (i : ℚ) + 1) ≤ 2 ^ (52 : ℤ) := zpow_le_zpow_right₀ (by norm_num) hlt
        have h3 : |(i : ℚ)| < 2 ^ 53 := by
          refine lt_of_lt_of_le h1 (h2.trans ?_)
          norm_num
        have h4 : |i| < 2 ^ 53 := by exact_mod_cast h3
        exact hs h4.le
      obtain ⟨k, hk⟩ := Int.eq_ofNat_of_zero_le hu
      unfold jsNum
      rw [Round64.rndQ_of_ne hi, hk]
      have : Round64.pow2 (k : ℤ) = ((2 ^ k : ℤ) : ℚ) := by
        rw [Round64.pow2_eq]
        push_cast
        rw [zpow_natCast]
      rw [this, ← Int.cast_mul]
      rw [Rat.floor_intCast]
  refine ⟨he, ?_⟩
  have h1 := Round64.rndQ_error (i : ℚ)
  rw [← he] at h1
  have h2 : |(i : ℚ)| ≤ 2 ^ 63 := by
    have : |i| ≤ 2 ^ 63 := abs_le.mpr ⟨h.1, h.2.le⟩
    exact_mod_cast this
  have h3 : max (|(i : ℚ)| * 2 ^ (-53 : ℤ)) (2 ^ (-1075 : ℤ)) ≤ 1024 := by
    refine max_le ?_ ?_
    · calc |(i : ℚ)| * 2 ^ (-53 : ℤ) ≤ 2 ^ 63 * 2 ^ (-53 : ℤ) := by
            exact mul_le_mul_of_nonneg_right h2 (by positivity)
        _ = 1024 := by norm_num
    · calc (2 : ℚ) ^ (-1075 : ℤ) ≤ 2 ^ (10 : ℤ) := zpow_le_zpow_right₀ (by norm_num) (by norm_num)
        _ = 1024 := by norm_num
  have h4 := h1.trans h3
  exact_mod_cast h4

/-! ## Packets -/

theorem reads_packet [WireFloat F] (R : Runtime) (h0 : R.int 0 = 0) (m : PacketPb F) (h : Sendable m) :
    browserPacket R (protoMarshal encPacketPb m) = some (m.mapInts R.int) :=
  (readPacket_runs R h0 m h.1).whole h.2

theorem jsNum_zero : jsNum 0 = 0 := jsNum_exact 0 (by unfold Exact; norm_num)

/-- **C91, TypeScript.** Every packet is read as it was sent. -/
theorem typescript [WireFloat F] (m : PacketPb F) (h : Sendable m) :
    browserPacket tsRuntime (protoMarshal encPacketPb m) = some m := by
  rw [reads_packet tsRuntime rfl m h, m.mapInts_self (f := tsRuntime.int) (fun _ _ => rfl) h.1]

/-- **C91, JavaScript.** Every packet is read as it was sent, except that integers become the nearest doubles. -/
theorem javascript [WireFloat F] (m : PacketPb F) (h : Sendable m) :
    browserPacket jsRuntime (protoMarshal encPacketPb m) = some (m.mapInts jsNum) :=
  reads_packet jsRuntime jsNum_zero m h

/-- **C91, partial.** Both readers read every packet as it was sent if its integers are at most 2^53 in size. -/
theorem browser_partial [WireFloat F] (R : Runtime) (hR : R ∈ [tsRuntime, jsRuntime]) (m : PacketPb F) (hm : m.AllInts Exact)
    (hl : (protoMarshal encPacketPb m).length < 2 ^ 32) : browserPacket R (protoMarshal encPacketPb m) = some m := by
  have hs : Sendable m := ⟨hm.mono fun i h => by
    unfold Exact at h
    have := abs_le.mp h
    exact ⟨by omega, by omega⟩, hl⟩
  simp only [List.mem_cons, List.not_mem_nil, or_false] at hR
  rcases hR with rfl | rfl
  · exact typescript m hs
  · rw [javascript m hs, m.mapInts_self jsNum_exact hm]

/-- **C91, the claim fails**: a packet with the time stamp 2^53 + 1 is read in JavaScript with 2^53. -/
theorem claim_fails [WireFloat F] : ¬ Claim F := by
  intro hc
  have hs : Sendable (⟨[], 2 ^ 53 + 1⟩ : PacketPb F) := by
    refine ⟨⟨fun a ha => absurd ha (by simp), by constructor <;> norm_num⟩, ?_⟩
    show (printRecs [(2, WireVal.varint ((2 ^ 53 + 1 : Int) % 2 ^ 64).toNat)]).length < 2 ^ 32
    decide +kernel
  have h1 := hc jsRuntime (by simp) _ hs
  rw [javascript _ hs] at h1
  have h2 : jsNum (2 ^ 53 + 1) = 2 ^ 53 + 1 := congrArg PacketPb.timestamp (Option.some.inj h1)
  exact absurd h2 (by decide +kernel)

/-- **C91, as in Go.** What Go reads from the bytes of a packet, TypeScript reads too. -/
theorem as_in_go [WireFloat F] (m : PacketPb F) (h : Sendable m) :
    browserPacket (F := F) tsRuntime (protoMarshal encPacketPb m) = protoUnmarshal decPacketPb (protoMarshal encPacketPb m) := by
  rw [typescript m h, C52.packet_round m h.1 (lt_trans h.2 (by norm_num))]

/-! ## Later versions -/

theorem skip_record {M : Type} {fld : M → Nat → Nat → Bytes → Option (M × Bytes)} {m : M} (r : Rec) (hr : RecOk r)
    (hf : ∀ wt, fld m r.1 wt = skips wt m) : Runs fld m [r] m := by
  obtain ⟨n, v⟩ := r
  refine Runs.one (by cases v <;> simp only [RecOk] at hr <;> omega) fun hl rest => ?_
  rw [hf]
  unfold skips
  cases v with
  | varint v => simp only [WireVal.wt, WireVal.print, parseVal, getVarint_put _ _ hr.2, Option.map_some]
  | fixed64 v => simp only [WireVal.wt, WireVal.print, parseVal, getFixed_put 8 v rest (lt_of_lt_of_eq hr.2 (by norm_num)), Option.map_some]
  | bytes b =>
    have hb : b.length < 2 ^ 32 := by
      simp only [WireVal.print, List.length_append] at hl
      omega
    simp only [WireVal.wt, WireVal.print, parseVal, List.append_assoc]
    rw [getVarint_put _ _ (by omega)]
    simp
  | fixed32 v => simp only [WireVal.wt, WireVal.print, parseVal, getFixed_put 4 v rest (lt_of_lt_of_eq hr.2 (by norm_num)), Option.map_some]

theorem skip_records {M : Type} {fld : M → Nat → Nat → Bytes → Option (M × Bytes)} {m : M} (rs : List Rec)
    (hr : ∀ r ∈ rs, RecOk r ∧ ∀ wt, fld m r.1 wt = skips wt m) : Runs fld m rs m := by
  induction rs with
  | nil => exact Runs.start fld m
  | cons r rs ih =>
    exact (skip_record r (hr r (List.mem_cons_self ..)).1 (hr r (List.mem_cons_self ..)).2).append (a := [r])
      (ih fun x hx => hr x (List.mem_cons_of_mem _ hx))

/-- **C91, later versions.** Fields of packets that the readers do not know are skipped. -/
theorem later_fields [WireFloat F] (R : Runtime) (h0 : R.int 0 = 0) (m : PacketPb F) (hm : m.AllInts Int64Ok) (extra : List Rec)
    (hx : ∀ r ∈ extra, RecOk r ∧ 2 < r.1) (hl : (protoMarshal encPacketPb m ++ printRecs extra).length < 2 ^ 32) :
    browserPacket R (protoMarshal encPacketPb m ++ printRecs extra) = some (m.mapInts R.int) := by
  have h := (readPacket_runs R h0 m hm).append (skip_records (fld := readPacketField R) (m := m.mapInts R.int) extra fun r hr =>
    ⟨(hx r hr).1, fun wt => by
      have h2 := (hx r hr).2
      unfold readPacketField
      split
      · omega
      · omega
      · rfl⟩)
  unfold protoMarshal at hl ⊢
  rw [← printRecs_append] at hl ⊢
  exact h.whole hl

/-! ## Devices -/

/-- **C91, devices.** The bytes a worker delivers, read in the browser, show every device of its slice, in order. -/
theorem browser_sees [GoMath F] [JsonFloat F] [UtmLib F] [WireFloat F] (R : Runtime) (hR : R ∈ [tsRuntime, jsRuntime]) (now : Int)
    (xs : List (Device F × List (Route F))) (ht : ∀ x ∈ xs, C70.Ticked x.1)
    (hk : PacketPb.AllInts Exact ⟨C70.messages xs, now⟩) (hl : (packetBytes now (C70.messages xs)).length < 2 ^ 32) :
    ∃ p, browserPacket R (packetBytes now (C70.messages xs)) = some p ∧ p.timestamp = now ∧ p.devices.length = xs.length ∧
      ∀ (i : Nat) (x : Device F × List (Route F)), xs[i]? = some x → ∃ m, p.devices[i]? = some m ∧ C70.Sees m x.1 := by
  refine ⟨_, browser_partial R hR _ hk hl, rfl, List.length_map _, ?_⟩
  intro i x hx
  refine ⟨x.1.state.pb x.2, ?_, C70.ticked_sees _ (ht x (List.mem_of_getElem? hx)) _⟩
  show (C70.messages xs)[i]? = _
  unfold C70.messages
  rw [List.getElem?_map, hx]
  rfl

/-! Examples. -/

/-- A device at the given latitude and longitude, with a sensor. -/
def exDev (lat lon : F64) : DevicePb F64 :=
  { newDevicePb (F := F64) with
    id := "dev", speed := F64.round false 5, location := some { newLocationPb (F := F64) with lat := lat, lon := lon }
    battery := some ⟨F64.round false 50, 3600⟩, sensors := [⟨"s", "temperature", F64.round false 0, F64.round false 21⟩]
    isOffline := true, offlineDuration := -3 }

example : browserPacket tsRuntime (protoMarshal encPacketPb ⟨[exDev (F64.round false 55) (F64.round false 37)], 1700000000⟩) =
    some ⟨[exDev (F64.round false 55) (F64.round false 37)], 1700000000⟩ := by decide +kernel

example : (browserPacket (F := F64) jsRuntime (protoMarshal (encPacketPb (F := F64)) ⟨[], 2 ^ 60 + 2 ^ 7⟩)).map (·.timestamp) = some (2 ^ 60) ∧
    (browserPacket (F := F64) tsRuntime (protoMarshal (encPacketPb (F := F64)) ⟨[], 2 ^ 60 + 2 ^ 7⟩)).map (·.timestamp) = some (2 ^ 60 + 2 ^ 7) := by
  decide +kernel

/-- Two occurrences of a location, latitude and then longitude: TypeScript and Go merge them, JavaScript keeps the last. -/
def exTwice : Bytes := printRecs (field 1 [.bytes (printRecs (
  field 10 [.bytes (printRecs (field 1 (dblVals (F64.round false 55)))), .bytes (printRecs (field 2 (dblVals (F64.round false 37))))]))])

/-- The locations of a packet. -/
def places (p : Option (PacketPb F64)) : Option (List (Option (F64 × F64))) :=
  p.map fun p => p.devices.map fun d => d.location.map fun l => (l.lat, l.lon)

example : places (browserPacket tsRuntime exTwice) = some [some (F64.round false 55, F64.round false 37)] := by decide +kernel
example : places (packetFromBytes exTwice) = some [some (F64.round false 55, F64.round false 37)] := by decide +kernel
example : places (browserPacket jsRuntime exTwice) = some [some (F64.round false 0, F64.round false 37)] := by decide +kernel

/-- Cut bytes are an exception, except at the end of a record. -/
example : (browserPacket (F := F64) tsRuntime ((protoMarshal encPacketPb ⟨[exDev (F64.round false 55) (F64.round false 37)], 1700000000⟩).take 40)).isNone ∧
    (browserPacket (F := F64) tsRuntime []).isSome := by decide +kernel

end C91
end GpsGen
