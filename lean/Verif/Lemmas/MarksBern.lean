import Verif.Lemmas.Marks

/-! The translators between Bern and flavio read entries with the flavour of the result. The tables are checked in parts, which
keeps the memory of the kernel small. -/

set_option autoImplicit false
set_option Elab.async false

namespace Verif

open Spec

theorem consistent_bernFlavio_1 : consistent sameFields [] bernFlavour flavioFlavour ((mBernFlavio).take 130) = true := by decide +kernel

theorem consistent_bernFlavio_2 : consistent sameFields [] bernFlavour flavioFlavour ((mBernFlavio.drop 130).take 130) = true := by decide +kernel

theorem consistent_bernFlavio_3 : consistent sameFields [] bernFlavour flavioFlavour (((mBernFlavio.drop 130).drop 130).take 130) = true := by decide +kernel

theorem consistent_bernFlavio_4 : consistent sameFields [] bernFlavour flavioFlavour ((((mBernFlavio.drop 130).drop 130).drop 130).take 130) = true := by decide +kernel

theorem consistent_bernFlavio_5 : consistent sameFields [] bernFlavour flavioFlavour ((((mBernFlavio.drop 130).drop 130).drop 130).drop 130) = true := by decide +kernel

theorem consistent_bernFlavio : consistent sameFields [] bernFlavour flavioFlavour mBernFlavio = true :=
  consistent_split 130 consistent_bernFlavio_1 (consistent_split 130 consistent_bernFlavio_2 (consistent_split 130 consistent_bernFlavio_3 (consistent_split 130 consistent_bernFlavio_4 consistent_bernFlavio_5)))

theorem consistent_flavioBern_1 : consistent sameFields [] flavioFlavour bernFlavour ((mFlavioBern).take 130) = true := by decide +kernel

theorem consistent_flavioBern_2 : consistent sameFields [] flavioFlavour bernFlavour ((mFlavioBern.drop 130).take 130) = true := by decide +kernel

theorem consistent_flavioBern_3 : consistent sameFields [] flavioFlavour bernFlavour (((mFlavioBern.drop 130).drop 130).take 130) = true := by decide +kernel

theorem consistent_flavioBern_4 : consistent sameFields [] flavioFlavour bernFlavour ((((mFlavioBern.drop 130).drop 130).drop 130).take 130) = true := by decide +kernel

theorem consistent_flavioBern_5 : consistent sameFields [] flavioFlavour bernFlavour ((((mFlavioBern.drop 130).drop 130).drop 130).drop 130) = true := by decide +kernel

theorem consistent_flavioBern : consistent sameFields [] flavioFlavour bernFlavour mFlavioBern = true :=
  consistent_split 130 consistent_flavioBern_1 (consistent_split 130 consistent_flavioBern_2 (consistent_split 130 consistent_flavioBern_3 (consistent_split 130 consistent_flavioBern_4 consistent_flavioBern_5)))

end Verif
