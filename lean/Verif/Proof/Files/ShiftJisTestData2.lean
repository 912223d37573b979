import Verif.Files.ShiftJis.TestData2
import Verif.Proof.DataChecks
import Verif.Spec.Published.Jis0208

/-! Generated by tools/gen_files.py: the kernel compares the copies with the index. -/

namespace Verif.Generator.ShiftJis

open Spec.Published.Jis0208

/-- The lines of row 30 that are not used for encoding. -/
def drops30 : List (Nat × Nat × Nat) := []

theorem drops30_check : everyB (jisDropB rows) drops30 = true := by decide +kernel

theorem decodeIn30 : eqB (rowK jisK row30) Files.ShiftJis.decodeIn30 = true := by decide +kernel

theorem decodeOut30 : eqB (rowK utf8K row30) Files.ShiftJis.decodeOut30 = true := by decide +kernel

theorem encodeIn30 : eqB (rowK utf8K (keepK row30 drops30)) Files.ShiftJis.encodeIn30 = true := by decide +kernel

theorem encodeOut30 : eqB (rowK jisK (keepK row30 drops30)) Files.ShiftJis.encodeOut30 = true := by decide +kernel

/-- The lines of row 31 that are not used for encoding. -/
def drops31 : List (Nat × Nat × Nat) := []

theorem drops31_check : everyB (jisDropB rows) drops31 = true := by decide +kernel

theorem decodeIn31 : eqB (rowK jisK row31) Files.ShiftJis.decodeIn31 = true := by decide +kernel

theorem decodeOut31 : eqB (rowK utf8K row31) Files.ShiftJis.decodeOut31 = true := by decide +kernel

theorem encodeIn31 : eqB (rowK utf8K (keepK row31 drops31)) Files.ShiftJis.encodeIn31 = true := by decide +kernel

theorem encodeOut31 : eqB (rowK jisK (keepK row31 drops31)) Files.ShiftJis.encodeOut31 = true := by decide +kernel

/-- The lines of row 32 that are not used for encoding. -/
def drops32 : List (Nat × Nat × Nat) := []

theorem drops32_check : everyB (jisDropB rows) drops32 = true := by decide +kernel

theorem decodeIn32 : eqB (rowK jisK row32) Files.ShiftJis.decodeIn32 = true := by decide +kernel

theorem decodeOut32 : eqB (rowK utf8K row32) Files.ShiftJis.decodeOut32 = true := by decide +kernel

theorem encodeIn32 : eqB (rowK utf8K (keepK row32 drops32)) Files.ShiftJis.encodeIn32 = true := by decide +kernel

theorem encodeOut32 : eqB (rowK jisK (keepK row32 drops32)) Files.ShiftJis.encodeOut32 = true := by decide +kernel

/-- The lines of row 33 that are not used for encoding. -/
def drops33 : List (Nat × Nat × Nat) := []

theorem drops33_check : everyB (jisDropB rows) drops33 = true := by decide +kernel

theorem decodeIn33 : eqB (rowK jisK row33) Files.ShiftJis.decodeIn33 = true := by decide +kernel

theorem decodeOut33 : eqB (rowK utf8K row33) Files.ShiftJis.decodeOut33 = true := by decide +kernel

theorem encodeIn33 : eqB (rowK utf8K (keepK row33 drops33)) Files.ShiftJis.encodeIn33 = true := by decide +kernel

theorem encodeOut33 : eqB (rowK jisK (keepK row33 drops33)) Files.ShiftJis.encodeOut33 = true := by decide +kernel

/-- The lines of row 34 that are not used for encoding. -/
def drops34 : List (Nat × Nat × Nat) := []

theorem drops34_check : everyB (jisDropB rows) drops34 = true := by decide +kernel

theorem decodeIn34 : eqB (rowK jisK row34) Files.ShiftJis.decodeIn34 = true := by decide +kernel

theorem decodeOut34 : eqB (rowK utf8K row34) Files.ShiftJis.decodeOut34 = true := by decide +kernel

theorem encodeIn34 : eqB (rowK utf8K (keepK row34 drops34)) Files.ShiftJis.encodeIn34 = true := by decide +kernel

theorem encodeOut34 : eqB (rowK jisK (keepK row34 drops34)) Files.ShiftJis.encodeOut34 = true := by decide +kernel

/-- The lines of row 35 that are not used for encoding. -/
def drops35 : List (Nat × Nat × Nat) := []

theorem drops35_check : everyB (jisDropB rows) drops35 = true := by decide +kernel

theorem decodeIn35 : eqB (rowK jisK row35) Files.ShiftJis.decodeIn35 = true := by decide +kernel

theorem decodeOut35 : eqB (rowK utf8K row35) Files.ShiftJis.decodeOut35 = true := by decide +kernel

theorem encodeIn35 : eqB (rowK utf8K (keepK row35 drops35)) Files.ShiftJis.encodeIn35 = true := by decide +kernel

theorem encodeOut35 : eqB (rowK jisK (keepK row35 drops35)) Files.ShiftJis.encodeOut35 = true := by decide +kernel

/-- The lines of row 36 that are not used for encoding. -/
def drops36 : List (Nat × Nat × Nat) := []

theorem drops36_check : everyB (jisDropB rows) drops36 = true := by decide +kernel

theorem decodeIn36 : eqB (rowK jisK row36) Files.ShiftJis.decodeIn36 = true := by decide +kernel

theorem decodeOut36 : eqB (rowK utf8K row36) Files.ShiftJis.decodeOut36 = true := by decide +kernel

theorem encodeIn36 : eqB (rowK utf8K (keepK row36 drops36)) Files.ShiftJis.encodeIn36 = true := by decide +kernel

theorem encodeOut36 : eqB (rowK jisK (keepK row36 drops36)) Files.ShiftJis.encodeOut36 = true := by decide +kernel

/-- The lines of row 37 that are not used for encoding. -/
def drops37 : List (Nat × Nat × Nat) := []

theorem drops37_check : everyB (jisDropB rows) drops37 = true := by decide +kernel

theorem decodeIn37 : eqB (rowK jisK row37) Files.ShiftJis.decodeIn37 = true := by decide +kernel

theorem decodeOut37 : eqB (rowK utf8K row37) Files.ShiftJis.decodeOut37 = true := by decide +kernel

theorem encodeIn37 : eqB (rowK utf8K (keepK row37 drops37)) Files.ShiftJis.encodeIn37 = true := by decide +kernel

theorem encodeOut37 : eqB (rowK jisK (keepK row37 drops37)) Files.ShiftJis.encodeOut37 = true := by decide +kernel

/-- The lines of row 38 that are not used for encoding. -/
def drops38 : List (Nat × Nat × Nat) := []

theorem drops38_check : everyB (jisDropB rows) drops38 = true := by decide +kernel

theorem decodeIn38 : eqB (rowK jisK row38) Files.ShiftJis.decodeIn38 = true := by decide +kernel

theorem decodeOut38 : eqB (rowK utf8K row38) Files.ShiftJis.decodeOut38 = true := by decide +kernel

theorem encodeIn38 : eqB (rowK utf8K (keepK row38 drops38)) Files.ShiftJis.encodeIn38 = true := by decide +kernel

theorem encodeOut38 : eqB (rowK jisK (keepK row38 drops38)) Files.ShiftJis.encodeOut38 = true := by decide +kernel

/-- The lines of row 39 that are not used for encoding. -/
def drops39 : List (Nat × Nat × Nat) := []

theorem drops39_check : everyB (jisDropB rows) drops39 = true := by decide +kernel

theorem decodeIn39 : eqB (rowK jisK row39) Files.ShiftJis.decodeIn39 = true := by decide +kernel

theorem decodeOut39 : eqB (rowK utf8K row39) Files.ShiftJis.decodeOut39 = true := by decide +kernel

theorem encodeIn39 : eqB (rowK utf8K (keepK row39 drops39)) Files.ShiftJis.encodeIn39 = true := by decide +kernel

theorem encodeOut39 : eqB (rowK jisK (keepK row39 drops39)) Files.ShiftJis.encodeOut39 = true := by decide +kernel

/-- The lines of row 40 that are not used for encoding. -/
def drops40 : List (Nat × Nat × Nat) := []

theorem drops40_check : everyB (jisDropB rows) drops40 = true := by decide +kernel

theorem decodeIn40 : eqB (rowK jisK row40) Files.ShiftJis.decodeIn40 = true := by decide +kernel

theorem decodeOut40 : eqB (rowK utf8K row40) Files.ShiftJis.decodeOut40 = true := by decide +kernel

theorem encodeIn40 : eqB (rowK utf8K (keepK row40 drops40)) Files.ShiftJis.encodeIn40 = true := by decide +kernel

theorem encodeOut40 : eqB (rowK jisK (keepK row40 drops40)) Files.ShiftJis.encodeOut40 = true := by decide +kernel

/-- The lines of row 41 that are not used for encoding. -/
def drops41 : List (Nat × Nat × Nat) := []

theorem drops41_check : everyB (jisDropB rows) drops41 = true := by decide +kernel

theorem decodeIn41 : eqB (rowK jisK row41) Files.ShiftJis.decodeIn41 = true := by decide +kernel

theorem decodeOut41 : eqB (rowK utf8K row41) Files.ShiftJis.decodeOut41 = true := by decide +kernel

theorem encodeIn41 : eqB (rowK utf8K (keepK row41 drops41)) Files.ShiftJis.encodeIn41 = true := by decide +kernel

theorem encodeOut41 : eqB (rowK jisK (keepK row41 drops41)) Files.ShiftJis.encodeOut41 = true := by decide +kernel

/-- The lines of row 42 that are not used for encoding. -/
def drops42 : List (Nat × Nat × Nat) := []

theorem drops42_check : everyB (jisDropB rows) drops42 = true := by decide +kernel

theorem decodeIn42 : eqB (rowK jisK row42) Files.ShiftJis.decodeIn42 = true := by decide +kernel

theorem decodeOut42 : eqB (rowK utf8K row42) Files.ShiftJis.decodeOut42 = true := by decide +kernel

theorem encodeIn42 : eqB (rowK utf8K (keepK row42 drops42)) Files.ShiftJis.encodeIn42 = true := by decide +kernel

theorem encodeOut42 : eqB (rowK jisK (keepK row42 drops42)) Files.ShiftJis.encodeOut42 = true := by decide +kernel

/-- The lines of row 43 that are not used for encoding. -/
def drops43 : List (Nat × Nat × Nat) := []

theorem drops43_check : everyB (jisDropB rows) drops43 = true := by decide +kernel

theorem decodeIn43 : eqB (rowK jisK row43) Files.ShiftJis.decodeIn43 = true := by decide +kernel

theorem decodeOut43 : eqB (rowK utf8K row43) Files.ShiftJis.decodeOut43 = true := by decide +kernel

theorem encodeIn43 : eqB (rowK utf8K (keepK row43 drops43)) Files.ShiftJis.encodeIn43 = true := by decide +kernel

theorem encodeOut43 : eqB (rowK jisK (keepK row43 drops43)) Files.ShiftJis.encodeOut43 = true := by decide +kernel

/-- The lines of row 44 that are not used for encoding. -/
def drops44 : List (Nat × Nat × Nat) := [(8272, 32394, 10744), (8273, 35100, 10745), (8274, 37704, 10746), (8275, 37512, 10747), (8276, 34012, 10748), (8277, 20425, 10749), (8278, 28859, 10750), (8279, 26161, 10751), (8280, 26824, 10752), (8281, 37625, 10753), (8282, 26363, 10754), (8283, 24389, 10755), (8284, 20008, 10756), (8285, 20193, 10757), (8286, 20220, 10758), (8287, 20224, 10759), (8288, 20227, 10760), (8289, 20281, 10761), (8290, 20310, 10762), (8291, 20370, 10763), (8292, 20362, 10764), (8293, 20378, 10765), (8294, 20372, 10766), (8295, 20429, 10767), (8296, 20544, 10768), (8297, 20514, 10769), (8298, 20479, 10770), (8299, 20510, 10771), (8300, 20550, 10772), (8301, 20592, 10773), (8302, 20546, 10774), (8303, 20628, 10775), (8304, 20724, 10776), (8305, 20696, 10777), (8306, 20810, 10778), (8307, 20836, 10779), (8308, 20893, 10780), (8309, 20926, 10781), (8310, 20972, 10782), (8311, 21013, 10783), (8312, 21148, 10784), (8313, 21158, 10785), (8314, 21184, 10786), (8315, 21211, 10787), (8316, 21248, 10788), (8317, 21255, 10789), (8318, 21284, 10790), (8319, 21362, 10791), (8320, 21395, 10792), (8321, 21426, 10793), (8322, 21469, 10794), (8323, 64014, 10795), (8324, 21660, 10796), (8325, 21642, 10797), (8326, 21673, 10798), (8327, 21759, 10799), (8328, 21894, 10800), (8329, 22361, 10801), (8330, 22373, 10802), (8331, 22444, 10803), (8332, 22472, 10804), (8333, 22471, 10805), (8334, 64015, 10806), (8335, 64016, 10807), (8336, 22686, 10808), (8337, 22706, 10809), (8338, 22795, 10810), (8339, 22867, 10811), (8340, 22875, 10812), (8341, 22877, 10813), (8342, 22883, 10814), (8343, 22948, 10815), (8344, 22970, 10816), (8345, 23382, 10817), (8346, 23488, 10818), (8347, 29999, 10819), (8348, 23512, 10820), (8349, 23532, 10821), (8350, 23582, 10822), (8351, 23718, 10823), (8352, 23738, 10824), (8353, 23797, 10825), (8354, 23847, 10826), (8355, 23891, 10827), (8356, 64017, 10828), (8357, 23874, 10829), (8358, 23917, 10830), (8359, 23992, 10831), (8360, 23993, 10832), (8361, 24016, 10833), (8362, 24353, 10834), (8363, 24372, 10835), (8364, 24423, 10836), (8365, 24503, 10837), (8366, 24542, 10838), (8367, 24669, 10839), (8368, 24709, 10840), (8369, 24714, 10841), (8370, 24798, 10842), (8371, 24789, 10843), (8372, 24864, 10844), (8373, 24818, 10845), (8374, 24849, 10846), (8375, 24887, 10847), (8376, 24880, 10848), (8377, 24984, 10849), (8378, 25107, 10850), (8379, 25254, 10851), (8380, 25589, 10852), (8381, 25696, 10853), (8382, 25757, 10854), (8383, 25806, 10855), (8384, 25934, 10856), (8385, 26112, 10857), (8386, 26133, 10858), (8387, 26171, 10859), (8388, 26121, 10860), (8389, 26158, 10861), (8390, 26142, 10862), (8391, 26148, 10863), (8392, 26213, 10864), (8393, 26199, 10865), (8394, 26201, 10866), (8395, 64018, 10867), (8396, 26227, 10868), (8397, 26265, 10869), (8398, 26272, 10870), (8399, 26290, 10871), (8400, 26303, 10872), (8401, 26362, 10873), (8402, 26382, 10874), (8403, 63785, 10875), (8404, 26470, 10876), (8405, 26555, 10877), (8406, 26706, 10878), (8407, 26560, 10879), (8408, 26625, 10880), (8409, 26692, 10881), (8410, 26831, 10882), (8411, 64019, 10883), (8412, 26984, 10884), (8413, 64020, 10885), (8414, 27032, 10886), (8415, 27106, 10887), (8416, 27184, 10888), (8417, 27243, 10889), (8418, 27206, 10890), (8419, 27251, 10891), (8420, 27262, 10892), (8421, 27362, 10893), (8422, 27364, 10894), (8423, 27606, 10895), (8424, 27711, 10896), (8425, 27740, 10897), (8426, 27782, 10898), (8427, 27759, 10899), (8428, 27866, 10900), (8429, 27908, 10901), (8430, 28039, 10902), (8431, 28015, 10903), (8432, 28054, 10904), (8433, 28076, 10905), (8434, 28111, 10906), (8435, 28152, 10907), (8436, 28146, 10908), (8437, 28156, 10909), (8438, 28217, 10910), (8439, 28252, 10911), (8440, 28199, 10912), (8441, 28220, 10913), (8442, 28351, 10914), (8443, 28552, 10915), (8444, 28597, 10916), (8445, 28661, 10917), (8446, 28677, 10918), (8447, 28679, 10919), (8448, 28712, 10920), (8449, 28805, 10921), (8450, 28843, 10922), (8451, 28943, 10923), (8452, 28932, 10924), (8453, 29020, 10925), (8454, 28998, 10926), (8455, 28999, 10927), (8456, 64021, 10928), (8457, 29121, 10929), (8458, 29182, 10930), (8459, 29361, 10931)]

theorem drops44_check : everyB (jisDropB rows) drops44 = true := by decide +kernel

theorem decodeIn44 : eqB (rowK jisK row44) Files.ShiftJis.decodeIn44 = true := by decide +kernel

theorem decodeOut44 : eqB (rowK utf8K row44) Files.ShiftJis.decodeOut44 = true := by decide +kernel

theorem encodeIn44 : eqB (rowK utf8K (keepK row44 drops44)) Files.ShiftJis.encodeIn44 = true := by decide +kernel

theorem encodeOut44 : eqB (rowK jisK (keepK row44 drops44)) Files.ShiftJis.encodeOut44 = true := by decide +kernel

/-- The lines of row 45 that are not used for encoding. -/
def drops45 : List (Nat × Nat × Nat) := [(8460, 29374, 10932), (8461, 29476, 10933), (8462, 64022, 10934), (8463, 29559, 10935), (8464, 29629, 10936), (8465, 29641, 10937), (8466, 29654, 10938), (8467, 29667, 10939), (8468, 29650, 10940), (8469, 29703, 10941), (8470, 29685, 10942), (8471, 29734, 10943), (8472, 29738, 10944), (8473, 29737, 10945), (8474, 29742, 10946), (8475, 29794, 10947), (8476, 29833, 10948), (8477, 29855, 10949), (8478, 29953, 10950), (8479, 30063, 10951), (8480, 30338, 10952), (8481, 30364, 10953), (8482, 30366, 10954), (8483, 30363, 10955), (8484, 30374, 10956), (8485, 64023, 10957), (8486, 30534, 10958), (8487, 21167, 10959), (8488, 30753, 10960), (8489, 30798, 10961), (8490, 30820, 10962), (8491, 30842, 10963), (8492, 31024, 10964), (8493, 64024, 10965), (8494, 64025, 10966), (8495, 64026, 10967), (8496, 31124, 10968), (8497, 64027, 10969), (8498, 31131, 10970), (8499, 31441, 10971), (8500, 31463, 10972), (8501, 64028, 10973), (8502, 31467, 10974), (8503, 31646, 10975), (8504, 64029, 10976), (8505, 32072, 10977), (8506, 32092, 10978), (8507, 32183, 10979), (8508, 32160, 10980), (8509, 32214, 10981), (8510, 32338, 10982), (8511, 32583, 10983), (8512, 32673, 10984), (8513, 64030, 10985), (8514, 33537, 10986), (8515, 33634, 10987), (8516, 33663, 10988), (8517, 33735, 10989), (8518, 33782, 10990), (8519, 33864, 10991), (8520, 33972, 10992), (8521, 34131, 10993), (8522, 34137, 10994), (8523, 34155, 10995), (8524, 64031, 10996), (8525, 34224, 10997), (8526, 64032, 10998), (8527, 64033, 10999), (8528, 34823, 11000), (8529, 35061, 11001), (8530, 35346, 11002), (8531, 35383, 11003), (8532, 35449, 11004), (8533, 35495, 11005), (8534, 35518, 11006), (8535, 35551, 11007), (8536, 64034, 11008), (8537, 35574, 11009), (8538, 35667, 11010), (8539, 35711, 11011), (8540, 36080, 11012), (8541, 36084, 11013), (8542, 36114, 11014), (8543, 36214, 11015), (8544, 64035, 11016), (8545, 36559, 11017), (8546, 64036, 11018), (8547, 64037, 11019), (8548, 36967, 11020), (8549, 37086, 11021), (8550, 64038, 11022), (8551, 37141, 11023), (8552, 37159, 11024), (8553, 37338, 11025), (8554, 37335, 11026), (8555, 37342, 11027), (8556, 37357, 11028), (8557, 37358, 11029), (8558, 37348, 11030), (8559, 37349, 11031), (8560, 37382, 11032), (8561, 37392, 11033), (8562, 37386, 11034), (8563, 37434, 11035), (8564, 37440, 11036), (8565, 37436, 11037), (8566, 37454, 11038), (8567, 37465, 11039), (8568, 37457, 11040), (8569, 37433, 11041), (8570, 37479, 11042), (8571, 37543, 11043), (8572, 37495, 11044), (8573, 37496, 11045), (8574, 37607, 11046), (8575, 37591, 11047), (8576, 37593, 11048), (8577, 37584, 11049), (8578, 64039, 11050), (8579, 37589, 11051), (8580, 37600, 11052), (8581, 37587, 11053), (8582, 37669, 11054), (8583, 37665, 11055), (8584, 37627, 11056), (8585, 64040, 11057), (8586, 37662, 11058), (8587, 37631, 11059), (8588, 37661, 11060), (8589, 37634, 11061), (8590, 37744, 11062), (8591, 37719, 11063), (8592, 37796, 11064), (8593, 37830, 11065), (8594, 37854, 11066), (8595, 37880, 11067), (8596, 37937, 11068), (8597, 37957, 11069), (8598, 37960, 11070), (8599, 38290, 11071), (8600, 63964, 11072), (8601, 64041, 11073), (8602, 38557, 11074), (8603, 38575, 11075), (8604, 38707, 11076), (8605, 38715, 11077), (8606, 38723, 11078), (8607, 38733, 11079), (8608, 38735, 11080), (8609, 38737, 11081), (8610, 38741, 11082), (8611, 38999, 11083), (8612, 39013, 11084), (8613, 64042, 11085), (8614, 64043, 11086), (8615, 39207, 11087), (8616, 64044, 11088), (8617, 39326, 11089), (8618, 39502, 11090), (8619, 39641, 11091), (8620, 39644, 11092), (8621, 39797, 11093), (8622, 39794, 11094), (8623, 39823, 11095), (8624, 39857, 11096), (8625, 39867, 11097), (8626, 39936, 11098), (8627, 40304, 11099), (8628, 40299, 11100), (8629, 64045, 11101), (8630, 40473, 11102), (8631, 40657, 11103), (8634, 8560, 10716), (8635, 8561, 10717), (8636, 8562, 10718), (8637, 8563, 10719), (8638, 8564, 10720), (8639, 8565, 10721), (8640, 8566, 10722), (8641, 8567, 10723), (8642, 8568, 10724), (8643, 8569, 10725), (8644, 65506, 137), (8645, 65508, 10737), (8646, 65287, 10738), (8647, 65282, 10739)]

theorem drops45_check : everyB (jisDropB rows) drops45 = true := by decide +kernel

theorem decodeIn45 : eqB (rowK jisK row45) Files.ShiftJis.decodeIn45 = true := by decide +kernel

theorem decodeOut45 : eqB (rowK utf8K row45) Files.ShiftJis.decodeOut45 = true := by decide +kernel

theorem encodeIn45 : eqB (rowK utf8K (keepK row45 drops45)) Files.ShiftJis.encodeIn45 = true := by decide +kernel

theorem encodeOut45 : eqB (rowK jisK (keepK row45 drops45)) Files.ShiftJis.encodeOut45 = true := by decide +kernel

/-- The lines of row 46 that are not used for encoding. -/
def drops46 : List (Nat × Nat × Nat) := []

theorem drops46_check : everyB (jisDropB rows) drops46 = true := by decide +kernel

theorem decodeIn46 : eqB (rowK jisK row46) Files.ShiftJis.decodeIn46 = true := by decide +kernel

theorem decodeOut46 : eqB (rowK utf8K row46) Files.ShiftJis.decodeOut46 = true := by decide +kernel

theorem encodeIn46 : eqB (rowK utf8K (keepK row46 drops46)) Files.ShiftJis.encodeIn46 = true := by decide +kernel

theorem encodeOut46 : eqB (rowK jisK (keepK row46 drops46)) Files.ShiftJis.encodeOut46 = true := by decide +kernel

/-- The lines of row 47 that are not used for encoding. -/
def drops47 : List (Nat × Nat × Nat) := []

theorem drops47_check : everyB (jisDropB rows) drops47 = true := by decide +kernel

theorem decodeIn47 : eqB (rowK jisK row47) Files.ShiftJis.decodeIn47 = true := by decide +kernel

theorem decodeOut47 : eqB (rowK utf8K row47) Files.ShiftJis.decodeOut47 = true := by decide +kernel

theorem encodeIn47 : eqB (rowK utf8K (keepK row47 drops47)) Files.ShiftJis.encodeIn47 = true := by decide +kernel

theorem encodeOut47 : eqB (rowK jisK (keepK row47 drops47)) Files.ShiftJis.encodeOut47 = true := by decide +kernel

/-- The lines of row 48 that are not used for encoding. -/
def drops48 : List (Nat × Nat × Nat) := []

theorem drops48_check : everyB (jisDropB rows) drops48 = true := by decide +kernel

theorem decodeIn48 : eqB (rowK jisK row48) Files.ShiftJis.decodeIn48 = true := by decide +kernel

theorem decodeOut48 : eqB (rowK utf8K row48) Files.ShiftJis.decodeOut48 = true := by decide +kernel

theorem encodeIn48 : eqB (rowK utf8K (keepK row48 drops48)) Files.ShiftJis.encodeIn48 = true := by decide +kernel

theorem encodeOut48 : eqB (rowK jisK (keepK row48 drops48)) Files.ShiftJis.encodeOut48 = true := by decide +kernel

/-- The lines of row 49 that are not used for encoding. -/
def drops49 : List (Nat × Nat × Nat) := []

theorem drops49_check : everyB (jisDropB rows) drops49 = true := by decide +kernel

theorem decodeIn49 : eqB (rowK jisK row49) Files.ShiftJis.decodeIn49 = true := by decide +kernel

theorem decodeOut49 : eqB (rowK utf8K row49) Files.ShiftJis.decodeOut49 = true := by decide +kernel

theorem encodeIn49 : eqB (rowK utf8K (keepK row49 drops49)) Files.ShiftJis.encodeIn49 = true := by decide +kernel

theorem encodeOut49 : eqB (rowK jisK (keepK row49 drops49)) Files.ShiftJis.encodeOut49 = true := by decide +kernel

/-- The lines of row 50 that are not used for encoding. -/
def drops50 : List (Nat × Nat × Nat) := []

theorem drops50_check : everyB (jisDropB rows) drops50 = true := by decide +kernel

theorem decodeIn50 : eqB (rowK jisK row50) Files.ShiftJis.decodeIn50 = true := by decide +kernel

theorem decodeOut50 : eqB (rowK utf8K row50) Files.ShiftJis.decodeOut50 = true := by decide +kernel

theorem encodeIn50 : eqB (rowK utf8K (keepK row50 drops50)) Files.ShiftJis.encodeIn50 = true := by decide +kernel

theorem encodeOut50 : eqB (rowK jisK (keepK row50 drops50)) Files.ShiftJis.encodeOut50 = true := by decide +kernel

/-- The lines of row 51 that are not used for encoding. -/
def drops51 : List (Nat × Nat × Nat) := []

theorem drops51_check : everyB (jisDropB rows) drops51 = true := by decide +kernel

theorem decodeIn51 : eqB (rowK jisK row51) Files.ShiftJis.decodeIn51 = true := by decide +kernel

theorem decodeOut51 : eqB (rowK utf8K row51) Files.ShiftJis.decodeOut51 = true := by decide +kernel

theorem encodeIn51 : eqB (rowK utf8K (keepK row51 drops51)) Files.ShiftJis.encodeIn51 = true := by decide +kernel

theorem encodeOut51 : eqB (rowK jisK (keepK row51 drops51)) Files.ShiftJis.encodeOut51 = true := by decide +kernel

/-- The lines of row 52 that are not used for encoding. -/
def drops52 : List (Nat × Nat × Nat) := []

theorem drops52_check : everyB (jisDropB rows) drops52 = true := by decide +kernel

theorem decodeIn52 : eqB (rowK jisK row52) Files.ShiftJis.decodeIn52 = true := by decide +kernel

theorem decodeOut52 : eqB (rowK utf8K row52) Files.ShiftJis.decodeOut52 = true := by decide +kernel

theorem encodeIn52 : eqB (rowK utf8K (keepK row52 drops52)) Files.ShiftJis.encodeIn52 = true := by decide +kernel

theorem encodeOut52 : eqB (rowK jisK (keepK row52 drops52)) Files.ShiftJis.encodeOut52 = true := by decide +kernel

/-- The lines of row 53 that are not used for encoding. -/
def drops53 : List (Nat × Nat × Nat) := []

theorem drops53_check : everyB (jisDropB rows) drops53 = true := by decide +kernel

theorem decodeIn53 : eqB (rowK jisK row53) Files.ShiftJis.decodeIn53 = true := by decide +kernel

theorem decodeOut53 : eqB (rowK utf8K row53) Files.ShiftJis.decodeOut53 = true := by decide +kernel

theorem encodeIn53 : eqB (rowK utf8K (keepK row53 drops53)) Files.ShiftJis.encodeIn53 = true := by decide +kernel

theorem encodeOut53 : eqB (rowK jisK (keepK row53 drops53)) Files.ShiftJis.encodeOut53 = true := by decide +kernel

/-- The lines of row 54 that are not used for encoding. -/
def drops54 : List (Nat × Nat × Nat) := []

theorem drops54_check : everyB (jisDropB rows) drops54 = true := by decide +kernel

theorem decodeIn54 : eqB (rowK jisK row54) Files.ShiftJis.decodeIn54 = true := by decide +kernel

theorem decodeOut54 : eqB (rowK utf8K row54) Files.ShiftJis.decodeOut54 = true := by decide +kernel

theorem encodeIn54 : eqB (rowK utf8K (keepK row54 drops54)) Files.ShiftJis.encodeIn54 = true := by decide +kernel

theorem encodeOut54 : eqB (rowK jisK (keepK row54 drops54)) Files.ShiftJis.encodeOut54 = true := by decide +kernel

/-- The lines of row 55 that are not used for encoding. -/
def drops55 : List (Nat × Nat × Nat) := []

theorem drops55_check : everyB (jisDropB rows) drops55 = true := by decide +kernel

theorem decodeIn55 : eqB (rowK jisK row55) Files.ShiftJis.decodeIn55 = true := by decide +kernel

theorem decodeOut55 : eqB (rowK utf8K row55) Files.ShiftJis.decodeOut55 = true := by decide +kernel

theorem encodeIn55 : eqB (rowK utf8K (keepK row55 drops55)) Files.ShiftJis.encodeIn55 = true := by decide +kernel

theorem encodeOut55 : eqB (rowK jisK (keepK row55 drops55)) Files.ShiftJis.encodeOut55 = true := by decide +kernel

/-- The lines of row 56 that are not used for encoding. -/
def drops56 : List (Nat × Nat × Nat) := []

theorem drops56_check : everyB (jisDropB rows) drops56 = true := by decide +kernel

theorem decodeIn56 : eqB (rowK jisK row56) Files.ShiftJis.decodeIn56 = true := by decide +kernel

theorem decodeOut56 : eqB (rowK utf8K row56) Files.ShiftJis.decodeOut56 = true := by decide +kernel

theorem encodeIn56 : eqB (rowK utf8K (keepK row56 drops56)) Files.ShiftJis.encodeIn56 = true := by decide +kernel

theorem encodeOut56 : eqB (rowK jisK (keepK row56 drops56)) Files.ShiftJis.encodeOut56 = true := by decide +kernel

/-- The lines of row 57 that are not used for encoding. -/
def drops57 : List (Nat × Nat × Nat) := [(10726, 8544, 1148), (10727, 8545, 1149), (10728, 8546, 1150), (10729, 8547, 1151), (10730, 8548, 1152), (10731, 8549, 1153), (10732, 8550, 1154), (10733, 8551, 1155), (10734, 8552, 1156), (10735, 8553, 1157), (10736, 65506, 137), (10740, 12849, 1201), (10741, 8470, 1193), (10742, 8481, 1195), (10743, 8757, 165)]

theorem drops57_check : everyB (jisDropB rows) drops57 = true := by decide +kernel

theorem decodeIn57 : eqB (rowK jisK row57) Files.ShiftJis.decodeIn57 = true := by decide +kernel

theorem decodeOut57 : eqB (rowK utf8K row57) Files.ShiftJis.decodeOut57 = true := by decide +kernel

theorem encodeIn57 : eqB (rowK utf8K (keepK row57 drops57)) Files.ShiftJis.encodeIn57 = true := by decide +kernel

theorem encodeOut57 : eqB (rowK jisK (keepK row57 drops57)) Files.ShiftJis.encodeOut57 = true := by decide +kernel

/-- The lines of row 58 that are not used for encoding. -/
def drops58 : List (Nat × Nat × Nat) := []

theorem drops58_check : everyB (jisDropB rows) drops58 = true := by decide +kernel

theorem decodeIn58 : eqB (rowK jisK row58) Files.ShiftJis.decodeIn58 = true := by decide +kernel

theorem decodeOut58 : eqB (rowK utf8K row58) Files.ShiftJis.decodeOut58 = true := by decide +kernel

theorem encodeIn58 : eqB (rowK utf8K (keepK row58 drops58)) Files.ShiftJis.encodeIn58 = true := by decide +kernel

theorem encodeOut58 : eqB (rowK jisK (keepK row58 drops58)) Files.ShiftJis.encodeOut58 = true := by decide +kernel

/-- The lines of row 59 that are not used for encoding. -/
def drops59 : List (Nat × Nat × Nat) := []

theorem drops59_check : everyB (jisDropB rows) drops59 = true := by decide +kernel

theorem decodeIn59 : eqB (rowK jisK row59) Files.ShiftJis.decodeIn59 = true := by decide +kernel

theorem decodeOut59 : eqB (rowK utf8K row59) Files.ShiftJis.decodeOut59 = true := by decide +kernel

theorem encodeIn59 : eqB (rowK utf8K (keepK row59 drops59)) Files.ShiftJis.encodeIn59 = true := by decide +kernel

theorem encodeOut59 : eqB (rowK jisK (keepK row59 drops59)) Files.ShiftJis.encodeOut59 = true := by decide +kernel

end Verif.Generator.ShiftJis
