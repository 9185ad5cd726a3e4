import Verif.Vrm.Export

/-!
The bone mappings of the embedded presets (converter/vrmconfig_presets). The tables are the entries of the files in their
order; JSON decoding is trusted.
-/

namespace Verif.Vrm

/-- An entry with a list of names. -/
def namesEntry (bone : String) (names : List String) : BoneMapping := ⟨bone.toList, false, false, [], names.map String.toList⟩

/-- An entry with one name. -/
def nameEntry (bone name : String) : BoneMapping := ⟨bone.toList, false, false, name.toList, []⟩

/-- converter/vrmconfig_presets/mmd.json:6-58. -/
def mmdBones : List BoneMapping := [
  namesEntry "hips" ["センター", "center"],
  namesEntry "spine" ["上半身", "upper body"],
  namesEntry "chest" ["上半身2", "upper body2"],
  namesEntry "neck" ["首", "neck"],
  namesEntry "head" ["頭", "head"],
  namesEntry "leftShoulder" ["左肩", "shoulder_L"],
  namesEntry "leftUpperArm" ["左腕", "arm_L"],
  namesEntry "leftLowerArm" ["左ひじ", "elbow_L"],
  namesEntry "leftHand" ["左手首", "wrist_L"],
  namesEntry "rightShoulder" ["右肩", "shoulder_R"],
  namesEntry "rightUpperArm" ["右腕", "arm_R"],
  namesEntry "rightLowerArm" ["右ひじ", "elbow_R"],
  namesEntry "rightHand" ["右手首", "wrist_R"],
  namesEntry "leftUpperLeg" ["左足", "leg_L"],
  namesEntry "leftLowerLeg" ["左ひざ", "knee_L"],
  namesEntry "leftFoot" ["左足首", "ankle_L"],
  namesEntry "leftToes" ["左つま先", "L toe"],
  namesEntry "rightUpperLeg" ["右足", "leg_R"],
  namesEntry "rightLowerLeg" ["右ひざ", "knee_R"],
  namesEntry "rightFoot" ["右足首", "ankle_R"],
  namesEntry "rightToes" ["右つま先", "R toe"],
  namesEntry "leftEye" ["左目", "eye_L"],
  namesEntry "rightEye" ["右目", "eye_R"],
  namesEntry "leftThumbProximal" ["左親指０", "thumb0_L"],
  namesEntry "leftThumbIntermediate" ["左親指１", "thumb1_L"],
  namesEntry "leftThumbDistal" ["左親指２", "thumb2_L"],
  namesEntry "leftIndexProximal" ["左人指１", "fore1_L"],
  namesEntry "leftIndexIntermediate" ["左人指２", "fore2_L"],
  namesEntry "leftIndexDistal" ["左人指３", "fore3_L"],
  namesEntry "leftMiddleProximal" ["左中指１", "middle1_L"],
  namesEntry "leftMiddleIntermediate" ["左中指２", "middle2_L"],
  namesEntry "leftMiddleDistal" ["左中指３", "middle3_L"],
  namesEntry "leftRingProximal" ["左薬指１", "third1_L"],
  namesEntry "leftRingIntermediate" ["左薬指２", "third2_L"],
  namesEntry "leftRingDistal" ["左薬指３", "third3_L"],
  namesEntry "leftLittleProximal" ["左小指１", "little1_L"],
  namesEntry "leftLittleIntermediate" ["左小指２", "little2_L"],
  namesEntry "leftLittleDistal" ["左小指３", "little3_L"],
  namesEntry "rightThumbProximal" ["右親指０", "thumb0_R"],
  namesEntry "rightThumbIntermediate" ["右親指１", "thumb1_R"],
  namesEntry "rightThumbDistal" ["右親指２", "thumb2_R"],
  namesEntry "rightIndexProximal" ["右人指１", "fore1_R"],
  namesEntry "rightIndexIntermediate" ["右人指２", "fore2_R"],
  namesEntry "rightIndexDistal" ["右人指３", "fore3_R"],
  namesEntry "rightMiddleProximal" ["右中指１", "middle1_R"],
  namesEntry "rightMiddleIntermediate" ["右中指２", "middle2_R"],
  namesEntry "rightMiddleDistal" ["右中指３", "middle3_R"],
  namesEntry "rightRingProximal" ["右薬指１", "third1_R"],
  namesEntry "rightRingIntermediate" ["右薬指２", "third2_R"],
  namesEntry "rightRingDistal" ["右薬指３", "third3_R"],
  namesEntry "rightLittleProximal" ["右小指１", "little1_R"],
  namesEntry "rightLittleIntermediate" ["右小指２", "little2_R"],
  namesEntry "rightLittleDistal" ["右小指３", "little3_R"]]

/-- converter/vrmconfig_presets/mmd_en.json:6-56. -/
def mmdEnBones : List BoneMapping := [
  nameEntry "hips" "center",
  nameEntry "spine" "upper body",
  nameEntry "chest" "upper body2",
  nameEntry "neck" "neck",
  nameEntry "head" "head",
  nameEntry "leftShoulder" "shoulder_L",
  nameEntry "leftUpperArm" "arm_L",
  nameEntry "leftLowerArm" "elbow_L",
  nameEntry "leftHand" "wrist_L",
  nameEntry "rightShoulder" "shoulder_R",
  nameEntry "rightUpperArm" "arm_R",
  nameEntry "rightLowerArm" "elbow_R",
  nameEntry "rightHand" "wrist_R",
  nameEntry "leftUpperLeg" "leg_L",
  nameEntry "leftLowerLeg" "knee_L",
  nameEntry "leftFoot" "ankle_L",
  nameEntry "rightUpperLeg" "leg_R",
  nameEntry "rightLowerLeg" "knee_R",
  nameEntry "rightFoot" "ankle_R",
  nameEntry "leftEye" "eye_L",
  nameEntry "rightEye" "eye_R",
  nameEntry "leftThumbProximal" "thumb0_L",
  nameEntry "leftThumbIntermediate" "thumb1_L",
  nameEntry "leftThumbDistal" "thumb2_L",
  nameEntry "leftIndexProximal" "fore1_L",
  nameEntry "leftIndexIntermediate" "fore2_L",
  nameEntry "leftIndexDistal" "fore3_L",
  nameEntry "leftMiddleProximal" "middle1_L",
  nameEntry "leftMiddleIntermediate" "middle2_L",
  nameEntry "leftMiddleDistal" "middle3_L",
  nameEntry "leftRingProximal" "third1_L",
  nameEntry "leftRingIntermediate" "third2_L",
  nameEntry "leftRingDistal" "third3_L",
  nameEntry "leftLittleProximal" "little1_L",
  nameEntry "leftLittleIntermediate" "little2_L",
  nameEntry "leftLittleDistal" "little3_L",
  nameEntry "rightThumbProximal" "thumb0_R",
  nameEntry "rightThumbIntermediate" "thumb1_R",
  nameEntry "rightThumbDistal" "thumb2_R",
  nameEntry "rightIndexProximal" "fore1_R",
  nameEntry "rightIndexIntermediate" "fore2_R",
  nameEntry "rightIndexDistal" "fore3_R",
  nameEntry "rightMiddleProximal" "middle1_R",
  nameEntry "rightMiddleIntermediate" "middle2_R",
  nameEntry "rightMiddleDistal" "middle3_R",
  nameEntry "rightRingProximal" "third1_R",
  nameEntry "rightRingIntermediate" "third2_R",
  nameEntry "rightRingDistal" "third3_R",
  nameEntry "rightLittleProximal" "little1_R",
  nameEntry "rightLittleIntermediate" "little2_R",
  nameEntry "rightLittleDistal" "little3_R"]

/-- converter/vrmconfig_presets/mmd_ja.json:6-56. -/
def mmdJaBones : List BoneMapping := [
  nameEntry "hips" "センター",
  nameEntry "spine" "上半身",
  nameEntry "chest" "上半身2",
  nameEntry "neck" "首",
  nameEntry "head" "頭",
  nameEntry "leftShoulder" "左肩",
  nameEntry "leftUpperArm" "左腕",
  nameEntry "leftLowerArm" "左ひじ",
  nameEntry "leftHand" "左手首",
  nameEntry "rightShoulder" "右肩",
  nameEntry "rightUpperArm" "右腕",
  nameEntry "rightLowerArm" "右ひじ",
  nameEntry "rightHand" "右手首",
  nameEntry "leftUpperLeg" "左足",
  nameEntry "leftLowerLeg" "左ひざ",
  nameEntry "leftFoot" "左足首",
  nameEntry "rightUpperLeg" "右足",
  nameEntry "rightLowerLeg" "右ひざ",
  nameEntry "rightFoot" "右足首",
  nameEntry "leftEye" "左目",
  nameEntry "rightEye" "右目",
  nameEntry "leftThumbProximal" "左親指０",
  nameEntry "leftThumbIntermediate" "左親指１",
  nameEntry "leftThumbDistal" "左親指２",
  nameEntry "leftIndexProximal" "左人指１",
  nameEntry "leftIndexIntermediate" "左人指２",
  nameEntry "leftIndexDistal" "左人指３",
  nameEntry "leftMiddleProximal" "左中指１",
  nameEntry "leftMiddleIntermediate" "左中指２",
  nameEntry "leftMiddleDistal" "左中指３",
  nameEntry "leftRingProximal" "左薬指１",
  nameEntry "leftRingIntermediate" "左薬指２",
  nameEntry "leftRingDistal" "左薬指３",
  nameEntry "leftLittleProximal" "左小指１",
  nameEntry "leftLittleIntermediate" "左小指２",
  nameEntry "leftLittleDistal" "左小指３",
  nameEntry "rightThumbProximal" "右親指０",
  nameEntry "rightThumbIntermediate" "右親指１",
  nameEntry "rightThumbDistal" "右親指２",
  nameEntry "rightIndexProximal" "右人指１",
  nameEntry "rightIndexIntermediate" "右人指２",
  nameEntry "rightIndexDistal" "右人指３",
  nameEntry "rightMiddleProximal" "右中指１",
  nameEntry "rightMiddleIntermediate" "右中指２",
  nameEntry "rightMiddleDistal" "右中指３",
  nameEntry "rightRingProximal" "右薬指１",
  nameEntry "rightRingIntermediate" "右薬指２",
  nameEntry "rightRingDistal" "右薬指３",
  nameEntry "rightLittleProximal" "右小指１",
  nameEntry "rightLittleIntermediate" "右小指２",
  nameEntry "rightLittleDistal" "右小指３"]

end Verif.Vrm
