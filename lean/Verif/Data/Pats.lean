import Verif.Data.Pats1
import Verif.Data.Pats2
import Verif.Data.Pats3
import Verif.Data.Pats4
import Verif.Data.Pats5
import Verif.Data.Pats6
import Verif.Data.Pats7
import Verif.Data.Pats8
import Verif.Data.Pats9
import Verif.Data.Pats10
import Verif.Data.Pats11
import Verif.Data.Pats12
/-! GENERATED by tools/gen_pats.py from /repo/internal/data; do not edit. -/
set_option autoImplicit false
set_option maxRecDepth 100000
namespace Verif.Data
open Verif.Model

/-- All locales: own data and parent. -/
def allLangs : List (LangData × Option LangData) :=
  [(afLang, none),
   (af_NALang, some afLang),
   (agqLang, none),
   (akLang, none),
   (amLang, none),
   (arLang, none),
   (ar_AELang, some arLang),
   (ar_BHLang, some arLang),
   (ar_DJLang, some arLang),
   (ar_DZLang, some arLang),
   (ar_EGLang, some arLang),
   (ar_EHLang, some arLang),
   (ar_ERLang, some arLang),
   (ar_ILLang, some arLang),
   (ar_IQLang, some arLang),
   (ar_JOLang, some arLang),
   (ar_KMLang, some arLang),
   (ar_KWLang, some arLang),
   (ar_LBLang, some arLang),
   (ar_LYLang, some arLang),
   (ar_MALang, some arLang),
   (ar_MRLang, some arLang),
   (ar_OMLang, some arLang),
   (ar_PSLang, some arLang),
   (ar_QALang, some arLang),
   (ar_SALang, some arLang),
   (ar_SDLang, some arLang),
   (ar_SOLang, some arLang),
   (ar_SSLang, some arLang),
   (ar_SYLang, some arLang),
   (ar_TDLang, some arLang),
   (ar_TNLang, some arLang),
   (ar_YELang, some arLang),
   (asLang, none),
   (asaLang, none),
   (astLang, none),
   (azLang, none),
   (az_CyrlLang, none),
   (az_LatnLang, none),
   (basLang, none),
   (beLang, none),
   (bemLang, none),
   (bezLang, none),
   (bgLang, none),
   (bmLang, none),
   (bnLang, none),
   (bn_INLang, some bnLang),
   (boLang, none),
   (bo_INLang, some boLang),
   (brLang, none),
   (brxLang, none),
   (bsLang, none),
   (bs_CyrlLang, none),
   (bs_LatnLang, none),
   (caLang, none),
   (ca_ADLang, some caLang),
   (ca_FRLang, some caLang),
   (ca_ITLang, some caLang),
   (ceLang, none),
   (cggLang, none),
   (chrLang, none),
   (ckbLang, none),
   (ckb_IRLang, some ckbLang),
   (csLang, none),
   (cyLang, none),
   (daLang, none),
   (da_GLLang, some daLang),
   (davLang, none),
   (deLang, none),
   (de_ATLang, some deLang),
   (de_BELang, some deLang),
   (de_CHLang, some deLang),
   (de_ITLang, some deLang),
   (de_LILang, some deLang),
   (de_LULang, some deLang),
   (djeLang, none),
   (dsbLang, none),
   (duaLang, none),
   (dyoLang, none),
   (dzLang, none),
   (ebuLang, none),
   (eeLang, none),
   (ee_TGLang, some eeLang),
   (elLang, none),
   (el_CYLang, some elLang),
   (enLang, none),
   (en_001Lang, some enLang),
   (en_150Lang, some enLang),
   (en_AGLang, some enLang),
   (en_AILang, some enLang),
   (en_ASLang, some enLang),
   (en_ATLang, some enLang),
   (en_AULang, some enLang),
   (en_BBLang, some enLang),
   (en_BELang, some enLang),
   (en_BILang, some enLang),
   (en_BMLang, some enLang),
   (en_BSLang, some enLang),
   (en_BWLang, some enLang),
   (en_BZLang, some enLang),
   (en_CALang, some enLang),
   (en_CCLang, some enLang),
   (en_CHLang, some enLang),
   (en_CKLang, some enLang),
   (en_CMLang, some enLang),
   (en_CXLang, some enLang),
   (en_CYLang, some enLang),
   (en_DELang, some enLang),
   (en_DGLang, some enLang),
   (en_DKLang, some enLang),
   (en_DMLang, some enLang),
   (en_ERLang, some enLang),
   (en_FILang, some enLang),
   (en_FJLang, some enLang),
   (en_FKLang, some enLang),
   (en_FMLang, some enLang),
   (en_GBLang, some enLang),
   (en_GDLang, some enLang),
   (en_GGLang, some enLang),
   (en_GHLang, some enLang),
   (en_GILang, some enLang),
   (en_GMLang, some enLang),
   (en_GULang, some enLang),
   (en_GYLang, some enLang),
   (en_HKLang, some enLang),
   (en_IELang, some enLang),
   (en_ILLang, some enLang),
   (en_IMLang, some enLang),
   (en_INLang, some enLang),
   (en_IOLang, some enLang),
   (en_JELang, some enLang),
   (en_JMLang, some enLang),
   (en_KELang, some enLang),
   (en_KILang, some enLang),
   (en_KNLang, some enLang),
   (en_KYLang, some enLang),
   (en_LCLang, some enLang),
   (en_LRLang, some enLang),
   (en_LSLang, some enLang),
   (en_MGLang, some enLang),
   (en_MHLang, some enLang),
   (en_MOLang, some enLang),
   (en_MPLang, some enLang),
   (en_MSLang, some enLang),
   (en_MTLang, some enLang),
   (en_MULang, some enLang),
   (en_MWLang, some enLang),
   (en_MYLang, some enLang),
   (en_NALang, some enLang),
   (en_NFLang, some enLang),
   (en_NGLang, some enLang),
   (en_NLLang, some enLang),
   (en_NRLang, some enLang),
   (en_NULang, some enLang),
   (en_NZLang, some enLang),
   (en_PGLang, some enLang),
   (en_PHLang, some enLang),
   (en_PKLang, some enLang),
   (en_PNLang, some enLang),
   (en_PRLang, some enLang),
   (en_PWLang, some enLang),
   (en_RWLang, some enLang),
   (en_SBLang, some enLang),
   (en_SCLang, some enLang),
   (en_SDLang, some enLang),
   (en_SELang, some enLang),
   (en_SGLang, some enLang),
   (en_SHLang, some enLang),
   (en_SILang, some enLang),
   (en_SLLang, some enLang),
   (en_SSLang, some enLang),
   (en_SXLang, some enLang),
   (en_SZLang, some enLang),
   (en_TCLang, some enLang),
   (en_TKLang, some enLang),
   (en_TOLang, some enLang),
   (en_TTLang, some enLang),
   (en_TVLang, some enLang),
   (en_TZLang, some enLang),
   (en_UGLang, some enLang),
   (en_UMLang, some enLang),
   (en_VCLang, some enLang),
   (en_VGLang, some enLang),
   (en_VILang, some enLang),
   (en_VULang, some enLang),
   (en_WSLang, some enLang),
   (en_ZALang, some enLang),
   (en_ZMLang, some enLang),
   (en_ZWLang, some enLang),
   (eoLang, none),
   (esLang, none),
   (es_419Lang, some esLang),
   (es_ARLang, some esLang),
   (es_BOLang, some esLang),
   (es_BRLang, some esLang),
   (es_BZLang, some esLang),
   (es_CLLang, some esLang),
   (es_COLang, some esLang),
   (es_CRLang, some esLang),
   (es_CULang, some esLang),
   (es_DOLang, some esLang),
   (es_EALang, some esLang),
   (es_ECLang, some esLang),
   (es_GQLang, some esLang),
   (es_GTLang, some esLang),
   (es_HNLang, some esLang),
   (es_ICLang, some esLang),
   (es_MXLang, some esLang),
   (es_NILang, some esLang),
   (es_PALang, some esLang),
   (es_PELang, some esLang),
   (es_PHLang, some esLang),
   (es_PRLang, some esLang),
   (es_PYLang, some esLang),
   (es_SVLang, some esLang),
   (es_USLang, some esLang),
   (es_UYLang, some esLang),
   (es_VELang, some esLang),
   (etLang, none),
   (euLang, none),
   (ewoLang, none),
   (faLang, none),
   (fa_AFLang, some faLang),
   (ffLang, none),
   (ff_CMLang, some ffLang),
   (ff_GNLang, some ffLang),
   (ff_MRLang, some ffLang),
   (fiLang, none),
   (filLang, none),
   (foLang, none),
   (fo_DKLang, some foLang),
   (frLang, none),
   (fr_BELang, some frLang),
   (fr_BFLang, some frLang),
   (fr_BILang, some frLang),
   (fr_BJLang, some frLang),
   (fr_BLLang, some frLang),
   (fr_CALang, some frLang),
   (fr_CDLang, some frLang),
   (fr_CFLang, some frLang),
   (fr_CGLang, some frLang),
   (fr_CHLang, some frLang),
   (fr_CILang, some frLang),
   (fr_CMLang, some frLang),
   (fr_DJLang, some frLang),
   (fr_DZLang, some frLang),
   (fr_GALang, some frLang),
   (fr_GFLang, some frLang),
   (fr_GNLang, some frLang),
   (fr_GPLang, some frLang),
   (fr_GQLang, some frLang),
   (fr_HTLang, some frLang),
   (fr_KMLang, some frLang),
   (fr_LULang, some frLang),
   (fr_MALang, some frLang),
   (fr_MCLang, some frLang),
   (fr_MFLang, some frLang),
   (fr_MGLang, some frLang),
   (fr_MLLang, some frLang),
   (fr_MQLang, some frLang),
   (fr_MRLang, some frLang),
   (fr_MULang, some frLang),
   (fr_NCLang, some frLang),
   (fr_NELang, some frLang),
   (fr_PFLang, some frLang),
   (fr_PMLang, some frLang),
   (fr_RELang, some frLang),
   (fr_RWLang, some frLang),
   (fr_SCLang, some frLang),
   (fr_SNLang, some frLang),
   (fr_SYLang, some frLang),
   (fr_TDLang, some frLang),
   (fr_TGLang, some frLang),
   (fr_TNLang, some frLang),
   (fr_VULang, some frLang),
   (fr_WFLang, some frLang),
   (fr_YTLang, some frLang),
   (furLang, none),
   (fyLang, none),
   (gaLang, none),
   (gdLang, none),
   (glLang, none),
   (gswLang, none),
   (gsw_FRLang, some gswLang),
   (gsw_LILang, some gswLang),
   (guLang, none),
   (guzLang, none),
   (gvLang, none),
   (haLang, none),
   (ha_GHLang, some haLang),
   (ha_NELang, some haLang),
   (hawLang, none),
   (heLang, none),
   (hiLang, none),
   (hrLang, none),
   (hr_BALang, some hrLang),
   (hsbLang, none),
   (huLang, none),
   (hyLang, none),
   (idLang, none),
   (igLang, none),
   (iiLang, none),
   (isLang, none),
   (itLang, none),
   (it_CHLang, some itLang),
   (it_SMLang, some itLang),
   (it_VALang, some itLang),
   (jaLang, none),
   (jgoLang, none),
   (jmcLang, none),
   (kaLang, none),
   (kabLang, none),
   (kamLang, none),
   (kdeLang, none),
   (keaLang, none),
   (khqLang, none),
   (kiLang, none),
   (kkLang, none),
   (klLang, none),
   (klnLang, none),
   (kmLang, none),
   (knLang, none),
   (koLang, none),
   (ko_KPLang, some koLang),
   (kokLang, none),
   (ksLang, none),
   (ksbLang, none),
   (ksfLang, none),
   (kshLang, none),
   (kwLang, none),
   (kyLang, none),
   (lagLang, none),
   (lbLang, none),
   (lgLang, none),
   (lktLang, none),
   (lnLang, none),
   (ln_AOLang, some lnLang),
   (ln_CFLang, some lnLang),
   (ln_CGLang, some lnLang),
   (loLang, none),
   (lrcLang, none),
   (lrc_IQLang, some lrcLang),
   (ltLang, none),
   (luLang, none),
   (luoLang, none),
   (luyLang, none),
   (lvLang, none),
   (masLang, none),
   (mas_TZLang, some masLang),
   (merLang, none),
   (mfeLang, none),
   (mgLang, none),
   (mghLang, none),
   (mgoLang, none),
   (mkLang, none),
   (mlLang, none),
   (mnLang, none),
   (mrLang, none),
   (msLang, none),
   (ms_BNLang, some msLang),
   (ms_SGLang, some msLang),
   (mtLang, none),
   (muaLang, none),
   (myLang, none),
   (mznLang, none),
   (naqLang, none),
   (nbLang, none),
   (nb_SJLang, some nbLang),
   (ndLang, none),
   (neLang, none),
   (ne_INLang, some neLang),
   (nlLang, none),
   (nl_AWLang, some nlLang),
   (nl_BELang, some nlLang),
   (nl_BQLang, some nlLang),
   (nl_CWLang, some nlLang),
   (nl_SRLang, some nlLang),
   (nl_SXLang, some nlLang),
   (nmgLang, none),
   (nnLang, none),
   (nnhLang, none),
   (nusLang, none),
   (nynLang, none),
   (omLang, none),
   (om_KELang, some omLang),
   (orLang, none),
   (osLang, none),
   (os_RULang, some osLang),
   (paLang, none),
   (pa_ArabLang, none),
   (pa_GuruLang, none),
   (plLang, none),
   (psLang, none),
   (ptLang, none),
   (pt_AOLang, some ptLang),
   (pt_CHLang, some ptLang),
   (pt_CVLang, some ptLang),
   (pt_GQLang, some ptLang),
   (pt_GWLang, some ptLang),
   (pt_LULang, some ptLang),
   (pt_MOLang, some ptLang),
   (pt_MZLang, some ptLang),
   (pt_PTLang, some ptLang),
   (pt_STLang, some ptLang),
   (pt_TLLang, some ptLang),
   (quLang, none),
   (qu_BOLang, some quLang),
   (qu_ECLang, some quLang),
   (rmLang, none),
   (rnLang, none),
   (roLang, none),
   (ro_MDLang, some roLang),
   (rofLang, none),
   (ruLang, none),
   (ru_BYLang, some ruLang),
   (ru_KGLang, some ruLang),
   (ru_KZLang, some ruLang),
   (ru_MDLang, some ruLang),
   (ru_UALang, some ruLang),
   (rwLang, none),
   (rwkLang, none),
   (sahLang, none),
   (saqLang, none),
   (sbpLang, none),
   (seLang, none),
   (se_FILang, some seLang),
   (se_SELang, some seLang),
   (sehLang, none),
   (sesLang, none),
   (sgLang, none),
   (shiLang, none),
   (shi_LatnLang, none),
   (shi_TfngLang, none),
   (siLang, none),
   (skLang, none),
   (slLang, none),
   (smnLang, none),
   (snLang, none),
   (soLang, none),
   (so_DJLang, some soLang),
   (so_ETLang, some soLang),
   (so_KELang, some soLang),
   (sqLang, none),
   (sq_MKLang, some sqLang),
   (sq_XKLang, some sqLang),
   (srLang, none),
   (sr_CyrlLang, none),
   (sr_Cyrl_BALang, some sr_CyrlLang),
   (sr_Cyrl_MELang, some sr_CyrlLang),
   (sr_Cyrl_XKLang, some sr_CyrlLang),
   (sr_LatnLang, none),
   (sr_Latn_BALang, some sr_LatnLang),
   (sr_Latn_MELang, some sr_LatnLang),
   (sr_Latn_XKLang, some sr_LatnLang),
   (svLang, none),
   (sv_AXLang, some svLang),
   (sv_FILang, some svLang),
   (swLang, none),
   (sw_CDLang, some swLang),
   (sw_KELang, some swLang),
   (sw_UGLang, some swLang),
   (taLang, none),
   (ta_LKLang, some taLang),
   (ta_MYLang, some taLang),
   (ta_SGLang, some taLang),
   (teLang, none),
   (teoLang, none),
   (teo_KELang, some teoLang),
   (thLang, none),
   (tiLang, none),
   (ti_ERLang, some tiLang),
   (tlLang, none),
   (toLang, none),
   (trLang, none),
   (tr_CYLang, some trLang),
   (twqLang, none),
   (tzmLang, none),
   (ugLang, none),
   (ukLang, none),
   (urLang, none),
   (ur_INLang, some urLang),
   (uzLang, none),
   (uz_ArabLang, none),
   (uz_CyrlLang, none),
   (uz_LatnLang, none),
   (viLang, none),
   (vunLang, none),
   (waeLang, none),
   (xogLang, none),
   (yavLang, none),
   (yiLang, none),
   (yoLang, none),
   (yo_BJLang, some yoLang),
   (yueLang, none),
   (zghLang, none),
   (zhLang, none),
   (zh_HansLang, none),
   (zh_Hans_HKLang, some zh_HansLang),
   (zh_Hans_MOLang, some zh_HansLang),
   (zh_Hans_SGLang, some zh_HansLang),
   (zh_HantLang, none),
   (zh_Hant_HKLang, some zh_HantLang),
   (zh_Hant_MOLang, some zh_HantLang),
   (zuLang, none)]

end Verif.Data
