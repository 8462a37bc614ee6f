import Verif.Lemmas.Marks

/-! The translators from JMS read entries with the flavour of the result. The tables are checked in parts, which
keeps the memory of the kernel small. -/

set_option autoImplicit false
set_option Elab.async false

namespace Verif

open Spec

theorem consistent_jmsFlavio_1 : consistent sameFields [] jmsFlavour flavioFlavour ((mJmsFlavio).take 130) = true := by decide +kernel

theorem consistent_jmsFlavio_2 : consistent sameFields [] jmsFlavour flavioFlavour ((mJmsFlavio.drop 130).take 130) = true := by decide +kernel

theorem consistent_jmsFlavio_3 : consistent sameFields [] jmsFlavour flavioFlavour (((mJmsFlavio.drop 130).drop 130).take 130) = true := by decide +kernel

theorem consistent_jmsFlavio_4 : consistent sameFields [] jmsFlavour flavioFlavour ((((mJmsFlavio.drop 130).drop 130).drop 130).take 130) = true := by decide +kernel

theorem consistent_jmsFlavio_5 : consistent sameFields [] jmsFlavour flavioFlavour ((((mJmsFlavio.drop 130).drop 130).drop 130).drop 130) = true := by decide +kernel

theorem consistent_jmsFlavio : consistent sameFields [] jmsFlavour flavioFlavour mJmsFlavio = true :=
  consistent_split 130 consistent_jmsFlavio_1 (consistent_split 130 consistent_jmsFlavio_2 (consistent_split 130 consistent_jmsFlavio_3 (consistent_split 130 consistent_jmsFlavio_4 consistent_jmsFlavio_5)))

theorem consistent_jmsBern_1 : consistent sameFields [] jmsFlavour bernFlavour ((mJmsBern).take 130) = true := by decide +kernel

theorem consistent_jmsBern_2 : consistent sameFields [] jmsFlavour bernFlavour ((mJmsBern.drop 130).take 130) = true := by decide +kernel

theorem consistent_jmsBern_3 : consistent sameFields [] jmsFlavour bernFlavour (((mJmsBern.drop 130).drop 130).take 130) = true := by decide +kernel

theorem consistent_jmsBern_4 : consistent sameFields [] jmsFlavour bernFlavour ((((mJmsBern.drop 130).drop 130).drop 130).take 130) = true := by decide +kernel

theorem consistent_jmsBern_5 : consistent sameFields [] jmsFlavour bernFlavour (((((mJmsBern.drop 130).drop 130).drop 130).drop 130).take 130) = true := by decide +kernel

theorem consistent_jmsBern_6 : consistent sameFields [] jmsFlavour bernFlavour ((((((mJmsBern.drop 130).drop 130).drop 130).drop 130).drop 130).take 130) = true := by decide +kernel

theorem consistent_jmsBern_7 : consistent sameFields [] jmsFlavour bernFlavour ((((((mJmsBern.drop 130).drop 130).drop 130).drop 130).drop 130).drop 130) = true := by decide +kernel

theorem consistent_jmsBern : consistent sameFields [] jmsFlavour bernFlavour mJmsBern = true :=
  consistent_split 130 consistent_jmsBern_1 (consistent_split 130 consistent_jmsBern_2 (consistent_split 130 consistent_jmsBern_3 (consistent_split 130 consistent_jmsBern_4 (consistent_split 130 consistent_jmsBern_5 (consistent_split 130 consistent_jmsBern_6 consistent_jmsBern_7)))))

theorem consistent_formFlavor_1 : consistent sameFields ["CVLL_sdnn", "CVRL_sdnn"] jmsFlavour formFlavorFlavour ((mFormFlavor).take 130) = true := by decide +kernel

theorem consistent_formFlavor_2 : consistent sameFields ["CVLL_sdnn", "CVRL_sdnn"] jmsFlavour formFlavorFlavour ((mFormFlavor.drop 130).take 130) = true := by decide +kernel

theorem consistent_formFlavor_3 : consistent sameFields ["CVLL_sdnn", "CVRL_sdnn"] jmsFlavour formFlavorFlavour ((mFormFlavor.drop 130).drop 130) = true := by decide +kernel

theorem consistent_formFlavor : consistent sameFields ["CVLL_sdnn", "CVRL_sdnn"] jmsFlavour formFlavorFlavour mFormFlavor = true :=
  consistent_split 130 consistent_formFlavor_1 (consistent_split 130 consistent_formFlavor_2 consistent_formFlavor_3)

theorem consistent_eos_1 : consistent sameCharge [] jmsFlavour eosFlavour (mEos) = true := by decide +kernel

theorem consistent_eos : consistent sameCharge [] jmsFlavour eosFlavour mEos = true :=
  consistent_eos_1

end Verif
