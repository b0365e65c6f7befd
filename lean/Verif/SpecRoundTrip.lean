import Verif.SpecAccuracy

/-!
# Converting a unit and back

The eight round trips between the units of simd_unit_conversion.hpp: the conversion there, the conversion back, the values for
which a promise is made, and how far the result may be from the value one started with.
-/

namespace Nova.Spec

/-- A round trip, named after the unit it starts from. -/
inductive Trip where
  | midiFreq | freqMidi | midiRatio | ratioMidi | octFreq | freqOct | dbAmp | ampDb
deriving DecidableEq

/-- The first conversion. -/
def Trip.there : Trip → UnOp
  | midiFreq => .midi2freq
  | freqMidi => .freq2midi
  | midiRatio => .midi2ratio
  | ratioMidi => .ratio2midi
  | octFreq => .oct2freq
  | freqOct => .freq2oct
  | dbAmp => .db2amp
  | ampDb => .amp2db

/-- The conversion back. -/
def Trip.back : Trip → UnOp
  | midiFreq => .freq2midi
  | freqMidi => .midi2freq
  | midiRatio => .ratio2midi
  | ratioMidi => .midi2ratio
  | octFreq => .freq2oct
  | freqOct => .oct2freq
  | dbAmp => .amp2db
  | ampDb => .db2amp

/-- Twenty octaves above and below the reference, or 200 dB. -/
def Trip.Range : Trip → ℝ → Prop
  | midiFreq, x => |x - 69| ≤ 240
  | freqMidi, x | freqOct, x => 440 / 2 ^ 20 ≤ x ∧ x ≤ 440 * 2 ^ 20
  | midiRatio, x => |x| ≤ 240
  | ratioMidi, x => 1 / 2 ^ 20 ≤ x ∧ x ≤ 2 ^ 20
  | octFreq, x => |x - 4.75| ≤ 20
  | dbAmp, x => |x| ≤ 200
  | ampDb, x => 1 / 10 ^ 10 ≤ x ∧ x ≤ 10 ^ 10

/-- `z` is close enough to the value `x` the round trip started from. -/
def Trip.Near : Trip → ℝ → ℝ → Prop
  | midiFreq, x, z => |z - x| ≤ 1.5e-5 + 1.2e-6 * |x - 69|
  | freqMidi, x, z => |z - x| ≤ (9e-7 + 8e-7 * |Real.logb 2 (x / 440)|) * x
  | midiRatio, x, z => |z - x| ≤ 7.2e-6 + 1.1e-6 * |x|
  | ratioMidi, x, z => |z - x| ≤ (4.2e-7 + 7.6e-7 * |Real.logb 2 x|) * x
  | octFreq, x, z => |z - x| ≤ 1.2e-6 + 1.1e-6 * |x - 4.75|
  | freqOct, x, z => |z - x| ≤ (8.4e-7 + 7.5e-7 * |Real.logb 2 (x / 440)|) * x
  | dbAmp, x, z => |z - x| ≤ 3.6e-6 + 1.1e-6 * |x|
  | ampDb, x, z => |z - x| ≤ (4.2e-7 + 1.25e-7 * |20 * Real.logb 10 x|) * x

end Nova.Spec
