import Verif.Model.Play

/-!
# `lengthMillis`, `positionMillis` of the concrete readers
-/

namespace TVP

/-- The constant `B2M` (src/ResamplingReader.h:679).  `rate` is `AUDIO_SAMPLE_RATE_EXACT` of the Teensy core: `44100.0f` on
Teensy 4, `44117.64706f` on Teensy 3. -/
def b2m (fp : Fp) (rate : ℚ) : Int := trunc (fp.d.rnd (fp.d.rnd (4294967296000 / rate) / 2))

/-- `44117.64706f`, the nearest `float`. -/
def rateTeensy3 : ℚ := 11294118 / 256

/-- `lengthMillis` (src/ResamplingReader.h:685-688, src/ResamplingSdReader.h:89-91). -/
def FileReader.lengthMillis (fp : Fp) (rate : ℚ) (a : FileReader) : Int := TVP.lengthMillis (b2m fp rate) a.rd.fileSize
def ArrayReader.lengthMillis (fp : Fp) (rate : ℚ) (a : ArrayReader) : Int := TVP.lengthMillis (b2m fp rate) a.rd.fileSize

/-- `positionMillis` of the file readers (src/ResamplingSdReader.h:76-87). -/
def FileReader.positionMillis (fp : Fp) (rate : ℚ) (a : FileReader) : M Int := a.rd.positionMillis fp (b2m fp rate)

/-- `positionMillis` of the array reader is that of the base class (src/ResamplingReader.h:680-683). -/
def ArrayReader.positionMillis (fp : Fp) (rate : ℚ) (a : ArrayReader) : Int := TVP.lengthMillis (b2m fp rate) a.rd.fileSize

end TVP
