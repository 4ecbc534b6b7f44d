import Verif.Data.Dicts1
import Verif.Data.Dicts2
import Verif.Data.Dicts3
import Verif.Data.Dicts4
import Verif.Data.Dicts5
import Verif.Data.Dicts6
import Verif.Data.Dicts7
import Verif.Data.Dicts8
/-! GENERATED by tools/gen_dicts.py from /repo/internal/data; do not edit. -/
set_option autoImplicit false
set_option maxRecDepth 100000
namespace Verif.Data
open Verif.Model

/-- All locales: own data and parent, in the order of their initialisation. -/
def allDicts : List (LangData × Option LangData) :=
  [(afDict, none),
   (af_NADict, some afDict),
   (agqDict, none),
   (akDict, none),
   (amDict, none),
   (arDict, none),
   (ar_AEDict, some arDict),
   (ar_BHDict, some arDict),
   (ar_DJDict, some arDict),
   (ar_DZDict, some arDict),
   (ar_EGDict, some arDict),
   (ar_EHDict, some arDict),
   (ar_ERDict, some arDict),
   (ar_ILDict, some arDict),
   (ar_IQDict, some arDict),
   (ar_JODict, some arDict),
   (ar_KMDict, some arDict),
   (ar_KWDict, some arDict),
   (ar_LBDict, some arDict),
   (ar_LYDict, some arDict),
   (ar_MADict, some arDict),
   (ar_MRDict, some arDict),
   (ar_OMDict, some arDict),
   (ar_PSDict, some arDict),
   (ar_QADict, some arDict),
   (ar_SADict, some arDict),
   (ar_SDDict, some arDict),
   (ar_SODict, some arDict),
   (ar_SSDict, some arDict),
   (ar_SYDict, some arDict),
   (ar_TDDict, some arDict),
   (ar_TNDict, some arDict),
   (ar_YEDict, some arDict),
   (asDict, none),
   (asaDict, none),
   (astDict, none),
   (az_CyrlDict, none),
   (az_LatnDict, none),
   (azDict, none),
   (basDict, none),
   (beDict, none),
   (bemDict, none),
   (bezDict, none),
   (bgDict, none),
   (bmDict, none),
   (bnDict, none),
   (bn_INDict, some bnDict),
   (boDict, none),
   (bo_INDict, some boDict),
   (brDict, none),
   (brxDict, none),
   (bs_CyrlDict, none),
   (bs_LatnDict, none),
   (bsDict, none),
   (caDict, none),
   (ca_ADDict, some caDict),
   (ca_FRDict, some caDict),
   (ca_ITDict, some caDict),
   (ceDict, none),
   (cggDict, none),
   (chrDict, none),
   (ckbDict, none),
   (ckb_IRDict, some ckbDict),
   (csDict, none),
   (cyDict, none),
   (daDict, none),
   (da_GLDict, some daDict),
   (davDict, none),
   (deDict, none),
   (de_ATDict, some deDict),
   (de_BEDict, some deDict),
   (de_CHDict, some deDict),
   (de_ITDict, some deDict),
   (de_LIDict, some deDict),
   (de_LUDict, some deDict),
   (djeDict, none),
   (dsbDict, none),
   (duaDict, none),
   (dyoDict, none),
   (dzDict, none),
   (ebuDict, none),
   (eeDict, none),
   (ee_TGDict, some eeDict),
   (elDict, none),
   (el_CYDict, some elDict),
   (enDict, none),
   (en_001Dict, some enDict),
   (en_150Dict, some enDict),
   (en_AGDict, some enDict),
   (en_AIDict, some enDict),
   (en_ASDict, some enDict),
   (en_ATDict, some enDict),
   (en_AUDict, some enDict),
   (en_BBDict, some enDict),
   (en_BEDict, some enDict),
   (en_BIDict, some enDict),
   (en_BMDict, some enDict),
   (en_BSDict, some enDict),
   (en_BWDict, some enDict),
   (en_BZDict, some enDict),
   (en_CADict, some enDict),
   (en_CCDict, some enDict),
   (en_CHDict, some enDict),
   (en_CKDict, some enDict),
   (en_CMDict, some enDict),
   (en_CXDict, some enDict),
   (en_CYDict, some enDict),
   (en_DEDict, some enDict),
   (en_DGDict, some enDict),
   (en_DKDict, some enDict),
   (en_DMDict, some enDict),
   (en_ERDict, some enDict),
   (en_FIDict, some enDict),
   (en_FJDict, some enDict),
   (en_FKDict, some enDict),
   (en_FMDict, some enDict),
   (en_GBDict, some enDict),
   (en_GDDict, some enDict),
   (en_GGDict, some enDict),
   (en_GHDict, some enDict),
   (en_GIDict, some enDict),
   (en_GMDict, some enDict),
   (en_GUDict, some enDict),
   (en_GYDict, some enDict),
   (en_HKDict, some enDict),
   (en_IEDict, some enDict),
   (en_ILDict, some enDict),
   (en_IMDict, some enDict),
   (en_INDict, some enDict),
   (en_IODict, some enDict),
   (en_JEDict, some enDict),
   (en_JMDict, some enDict),
   (en_KEDict, some enDict),
   (en_KIDict, some enDict),
   (en_KNDict, some enDict),
   (en_KYDict, some enDict),
   (en_LCDict, some enDict),
   (en_LRDict, some enDict),
   (en_LSDict, some enDict),
   (en_MGDict, some enDict),
   (en_MHDict, some enDict),
   (en_MODict, some enDict),
   (en_MPDict, some enDict),
   (en_MSDict, some enDict),
   (en_MTDict, some enDict),
   (en_MUDict, some enDict),
   (en_MWDict, some enDict),
   (en_MYDict, some enDict),
   (en_NADict, some enDict),
   (en_NFDict, some enDict),
   (en_NGDict, some enDict),
   (en_NLDict, some enDict),
   (en_NRDict, some enDict),
   (en_NUDict, some enDict),
   (en_NZDict, some enDict),
   (en_PGDict, some enDict),
   (en_PHDict, some enDict),
   (en_PKDict, some enDict),
   (en_PNDict, some enDict),
   (en_PRDict, some enDict),
   (en_PWDict, some enDict),
   (en_RWDict, some enDict),
   (en_SBDict, some enDict),
   (en_SCDict, some enDict),
   (en_SDDict, some enDict),
   (en_SEDict, some enDict),
   (en_SGDict, some enDict),
   (en_SHDict, some enDict),
   (en_SIDict, some enDict),
   (en_SLDict, some enDict),
   (en_SSDict, some enDict),
   (en_SXDict, some enDict),
   (en_SZDict, some enDict),
   (en_TCDict, some enDict),
   (en_TKDict, some enDict),
   (en_TODict, some enDict),
   (en_TTDict, some enDict),
   (en_TVDict, some enDict),
   (en_TZDict, some enDict),
   (en_UGDict, some enDict),
   (en_UMDict, some enDict),
   (en_VCDict, some enDict),
   (en_VGDict, some enDict),
   (en_VIDict, some enDict),
   (en_VUDict, some enDict),
   (en_WSDict, some enDict),
   (en_ZADict, some enDict),
   (en_ZMDict, some enDict),
   (en_ZWDict, some enDict),
   (eoDict, none),
   (esDict, none),
   (es_419Dict, some esDict),
   (es_ARDict, some esDict),
   (es_BODict, some esDict),
   (es_BRDict, some esDict),
   (es_BZDict, some esDict),
   (es_CLDict, some esDict),
   (es_CODict, some esDict),
   (es_CRDict, some esDict),
   (es_CUDict, some esDict),
   (es_DODict, some esDict),
   (es_EADict, some esDict),
   (es_ECDict, some esDict),
   (es_GQDict, some esDict),
   (es_GTDict, some esDict),
   (es_HNDict, some esDict),
   (es_ICDict, some esDict),
   (es_MXDict, some esDict),
   (es_NIDict, some esDict),
   (es_PADict, some esDict),
   (es_PEDict, some esDict),
   (es_PHDict, some esDict),
   (es_PRDict, some esDict),
   (es_PYDict, some esDict),
   (es_SVDict, some esDict),
   (es_USDict, some esDict),
   (es_UYDict, some esDict),
   (es_VEDict, some esDict),
   (etDict, none),
   (euDict, none),
   (ewoDict, none),
   (faDict, none),
   (fa_AFDict, some faDict),
   (ffDict, none),
   (ff_CMDict, some ffDict),
   (ff_GNDict, some ffDict),
   (ff_MRDict, some ffDict),
   (fiDict, none),
   (filDict, none),
   (foDict, none),
   (fo_DKDict, some foDict),
   (frDict, none),
   (fr_BEDict, some frDict),
   (fr_BFDict, some frDict),
   (fr_BIDict, some frDict),
   (fr_BJDict, some frDict),
   (fr_BLDict, some frDict),
   (fr_CADict, some frDict),
   (fr_CDDict, some frDict),
   (fr_CFDict, some frDict),
   (fr_CGDict, some frDict),
   (fr_CHDict, some frDict),
   (fr_CIDict, some frDict),
   (fr_CMDict, some frDict),
   (fr_DJDict, some frDict),
   (fr_DZDict, some frDict),
   (fr_GADict, some frDict),
   (fr_GFDict, some frDict),
   (fr_GNDict, some frDict),
   (fr_GPDict, some frDict),
   (fr_GQDict, some frDict),
   (fr_HTDict, some frDict),
   (fr_KMDict, some frDict),
   (fr_LUDict, some frDict),
   (fr_MADict, some frDict),
   (fr_MCDict, some frDict),
   (fr_MFDict, some frDict),
   (fr_MGDict, some frDict),
   (fr_MLDict, some frDict),
   (fr_MQDict, some frDict),
   (fr_MRDict, some frDict),
   (fr_MUDict, some frDict),
   (fr_NCDict, some frDict),
   (fr_NEDict, some frDict),
   (fr_PFDict, some frDict),
   (fr_PMDict, some frDict),
   (fr_REDict, some frDict),
   (fr_RWDict, some frDict),
   (fr_SCDict, some frDict),
   (fr_SNDict, some frDict),
   (fr_SYDict, some frDict),
   (fr_TDDict, some frDict),
   (fr_TGDict, some frDict),
   (fr_TNDict, some frDict),
   (fr_VUDict, some frDict),
   (fr_WFDict, some frDict),
   (fr_YTDict, some frDict),
   (furDict, none),
   (fyDict, none),
   (gaDict, none),
   (gdDict, none),
   (glDict, none),
   (gswDict, none),
   (gsw_FRDict, some gswDict),
   (gsw_LIDict, some gswDict),
   (guDict, none),
   (guzDict, none),
   (gvDict, none),
   (haDict, none),
   (ha_GHDict, some haDict),
   (ha_NEDict, some haDict),
   (hawDict, none),
   (heDict, none),
   (hiDict, none),
   (hrDict, none),
   (hr_BADict, some hrDict),
   (hsbDict, none),
   (huDict, none),
   (hyDict, none),
   (idDict, none),
   (igDict, none),
   (iiDict, none),
   (isDict, none),
   (itDict, none),
   (it_CHDict, some itDict),
   (it_SMDict, some itDict),
   (it_VADict, some itDict),
   (jaDict, none),
   (jgoDict, none),
   (jmcDict, none),
   (kaDict, none),
   (kabDict, none),
   (kamDict, none),
   (kdeDict, none),
   (keaDict, none),
   (khqDict, none),
   (kiDict, none),
   (kkDict, none),
   (klDict, none),
   (klnDict, none),
   (kmDict, none),
   (knDict, none),
   (koDict, none),
   (ko_KPDict, some koDict),
   (kokDict, none),
   (ksDict, none),
   (ksbDict, none),
   (ksfDict, none),
   (kshDict, none),
   (kwDict, none),
   (kyDict, none),
   (lagDict, none),
   (lbDict, none),
   (lgDict, none),
   (lktDict, none),
   (lnDict, none),
   (ln_AODict, some lnDict),
   (ln_CFDict, some lnDict),
   (ln_CGDict, some lnDict),
   (loDict, none),
   (lrcDict, none),
   (lrc_IQDict, some lrcDict),
   (ltDict, none),
   (luDict, none),
   (luoDict, none),
   (luyDict, none),
   (lvDict, none),
   (masDict, none),
   (mas_TZDict, some masDict),
   (merDict, none),
   (mfeDict, none),
   (mgDict, none),
   (mghDict, none),
   (mgoDict, none),
   (mkDict, none),
   (mlDict, none),
   (mnDict, none),
   (mrDict, none),
   (msDict, none),
   (ms_BNDict, some msDict),
   (ms_SGDict, some msDict),
   (mtDict, none),
   (muaDict, none),
   (myDict, none),
   (mznDict, none),
   (naqDict, none),
   (nbDict, none),
   (nb_SJDict, some nbDict),
   (ndDict, none),
   (neDict, none),
   (ne_INDict, some neDict),
   (nlDict, none),
   (nl_AWDict, some nlDict),
   (nl_BEDict, some nlDict),
   (nl_BQDict, some nlDict),
   (nl_CWDict, some nlDict),
   (nl_SRDict, some nlDict),
   (nl_SXDict, some nlDict),
   (nmgDict, none),
   (nnDict, none),
   (nnhDict, none),
   (nusDict, none),
   (nynDict, none),
   (omDict, none),
   (om_KEDict, some omDict),
   (orDict, none),
   (osDict, none),
   (os_RUDict, some osDict),
   (pa_ArabDict, none),
   (pa_GuruDict, none),
   (paDict, none),
   (plDict, none),
   (psDict, none),
   (ptDict, none),
   (pt_AODict, some ptDict),
   (pt_CHDict, some ptDict),
   (pt_CVDict, some ptDict),
   (pt_GQDict, some ptDict),
   (pt_GWDict, some ptDict),
   (pt_LUDict, some ptDict),
   (pt_MODict, some ptDict),
   (pt_MZDict, some ptDict),
   (pt_PTDict, some ptDict),
   (pt_STDict, some ptDict),
   (pt_TLDict, some ptDict),
   (quDict, none),
   (qu_BODict, some quDict),
   (qu_ECDict, some quDict),
   (rmDict, none),
   (rnDict, none),
   (roDict, none),
   (ro_MDDict, some roDict),
   (rofDict, none),
   (ruDict, none),
   (ru_BYDict, some ruDict),
   (ru_KGDict, some ruDict),
   (ru_KZDict, some ruDict),
   (ru_MDDict, some ruDict),
   (ru_UADict, some ruDict),
   (rwDict, none),
   (rwkDict, none),
   (sahDict, none),
   (saqDict, none),
   (sbpDict, none),
   (seDict, none),
   (se_FIDict, some seDict),
   (se_SEDict, some seDict),
   (sehDict, none),
   (sesDict, none),
   (sgDict, none),
   (shi_LatnDict, none),
   (shi_TfngDict, none),
   (shiDict, none),
   (siDict, none),
   (skDict, none),
   (slDict, none),
   (smnDict, none),
   (snDict, none),
   (soDict, none),
   (so_DJDict, some soDict),
   (so_ETDict, some soDict),
   (so_KEDict, some soDict),
   (sqDict, none),
   (sq_MKDict, some sqDict),
   (sq_XKDict, some sqDict),
   (sr_CyrlDict, none),
   (sr_Cyrl_BADict, some sr_CyrlDict),
   (sr_Cyrl_MEDict, some sr_CyrlDict),
   (sr_Cyrl_XKDict, some sr_CyrlDict),
   (sr_LatnDict, none),
   (sr_Latn_BADict, some sr_LatnDict),
   (sr_Latn_MEDict, some sr_LatnDict),
   (sr_Latn_XKDict, some sr_LatnDict),
   (srDict, none),
   (svDict, none),
   (sv_AXDict, some svDict),
   (sv_FIDict, some svDict),
   (swDict, none),
   (sw_CDDict, some swDict),
   (sw_KEDict, some swDict),
   (sw_UGDict, some swDict),
   (taDict, none),
   (ta_LKDict, some taDict),
   (ta_MYDict, some taDict),
   (ta_SGDict, some taDict),
   (teDict, none),
   (teoDict, none),
   (teo_KEDict, some teoDict),
   (thDict, none),
   (tiDict, none),
   (ti_ERDict, some tiDict),
   (tlDict, none),
   (toDict, none),
   (trDict, none),
   (tr_CYDict, some trDict),
   (twqDict, none),
   (tzmDict, none),
   (ugDict, none),
   (ukDict, none),
   (urDict, none),
   (ur_INDict, some urDict),
   (uz_ArabDict, none),
   (uz_CyrlDict, none),
   (uz_LatnDict, none),
   (uzDict, none),
   (viDict, none),
   (vunDict, none),
   (waeDict, none),
   (xogDict, none),
   (yavDict, none),
   (yiDict, none),
   (yoDict, none),
   (yo_BJDict, some yoDict),
   (yueDict, none),
   (zghDict, none),
   (zh_HansDict, none),
   (zh_Hans_HKDict, some zh_HansDict),
   (zh_Hans_MODict, some zh_HansDict),
   (zh_Hans_SGDict, some zh_HansDict),
   (zh_HantDict, none),
   (zh_Hant_HKDict, some zh_HantDict),
   (zh_Hant_MODict, some zh_HantDict),
   (zhDict, none),
   (zuDict, none)]

end Verif.Data
