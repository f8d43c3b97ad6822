import Verif.Model.Csn1
/-!
# Control messages from mobiles

Tables of `src/gsm_rlcmac.c` in the form of `Verif.Csn1.Items`, with sizes of arrays from `src/gsm_rlcmac.h`.
Transcribed mechanically: entries, widths, counts and order are those of the macros. Members of the C structures
are numbered; the number of a member has its name. Members `X[i].Y` of an array of structures are `X_Y i`.
-/

namespace Verif.Csn1.T

open Verif.Csn1

/-- Member of `FDD_Target_Cell_t` (gsm_rlcmac.h) -/
abbrev FDD_Target_Cell_t.FDD_ARFCN : Nat := 1000
/-- Member of `FDD_Target_Cell_t` (gsm_rlcmac.h) -/
abbrev FDD_Target_Cell_t.DIVERSITY : Nat := 1001
/-- Member of `FDD_Target_Cell_t` (gsm_rlcmac.h) -/
abbrev FDD_Target_Cell_t.Exist_Bandwith_FDD : Nat := 1002
/-- Member of `FDD_Target_Cell_t` (gsm_rlcmac.h) -/
abbrev FDD_Target_Cell_t.BANDWITH_FDD : Nat := 1003
/-- Member of `FDD_Target_Cell_t` (gsm_rlcmac.h) -/
abbrev FDD_Target_Cell_t.SCRAMBLING_CODE : Nat := 1004
/-- Member of `TDD_Target_Cell_t` (gsm_rlcmac.h) -/
abbrev TDD_Target_Cell_t.TDD_ARFCN : Nat := 1005
/-- Member of `TDD_Target_Cell_t` (gsm_rlcmac.h) -/
abbrev TDD_Target_Cell_t.DIVERSITY_TDD : Nat := 1006
/-- Member of `TDD_Target_Cell_t` (gsm_rlcmac.h) -/
abbrev TDD_Target_Cell_t.Exist_Bandwith_TDD : Nat := 1007
/-- Member of `TDD_Target_Cell_t` (gsm_rlcmac.h) -/
abbrev TDD_Target_Cell_t.BANDWITH_TDD : Nat := 1008
/-- Member of `TDD_Target_Cell_t` (gsm_rlcmac.h) -/
abbrev TDD_Target_Cell_t.CELL_PARAMETER : Nat := 1009
/-- Member of `TDD_Target_Cell_t` (gsm_rlcmac.h) -/
abbrev TDD_Target_Cell_t.Sync_Case_TSTD : Nat := 1010
/-- Member of `EUTRAN_Target_Cell_t` (gsm_rlcmac.h) -/
abbrev EUTRAN_Target_Cell_t.EARFCN : Nat := 1011
/-- Member of `EUTRAN_Target_Cell_t` (gsm_rlcmac.h) -/
abbrev EUTRAN_Target_Cell_t.Exist_Measurement_Bandwidth : Nat := 1012
/-- Member of `EUTRAN_Target_Cell_t` (gsm_rlcmac.h) -/
abbrev EUTRAN_Target_Cell_t.Measurement_Bandwidth : Nat := 1013
/-- Member of `EUTRAN_Target_Cell_t` (gsm_rlcmac.h) -/
abbrev EUTRAN_Target_Cell_t.Physical_Layer_Cell_Identity : Nat := 1014
/-- Member of `PLMN_t` (gsm_rlcmac.h) -/
abbrev PLMN_t.MCC2 : Nat := 1015
/-- Member of `PLMN_t` (gsm_rlcmac.h) -/
abbrev PLMN_t.MCC1 : Nat := 1016
/-- Member of `PLMN_t` (gsm_rlcmac.h) -/
abbrev PLMN_t.MNC3 : Nat := 1017
/-- Member of `PLMN_t` (gsm_rlcmac.h) -/
abbrev PLMN_t.MCC3 : Nat := 1018
/-- Member of `PLMN_t` (gsm_rlcmac.h) -/
abbrev PLMN_t.MNC2 : Nat := 1019
/-- Member of `PLMN_t` (gsm_rlcmac.h) -/
abbrev PLMN_t.MNC1 : Nat := 1020
/-- Member of `UTRAN_CSG_Target_Cell_t` (gsm_rlcmac.h) -/
abbrev UTRAN_CSG_Target_Cell_t.UTRAN_CI : Nat := 1021
/-- Member of `UTRAN_CSG_Target_Cell_t` (gsm_rlcmac.h) -/
abbrev UTRAN_CSG_Target_Cell_t.Exist_PLMN_ID : Nat := 1022
/-- Member of `UTRAN_CSG_Target_Cell_t` (gsm_rlcmac.h) -/
abbrev UTRAN_CSG_Target_Cell_t.PLMN_ID : Nat := 1023
/-- Member of `EUTRAN_CSG_Target_Cell_t` (gsm_rlcmac.h) -/
abbrev EUTRAN_CSG_Target_Cell_t.EUTRAN_CI : Nat := 1024
/-- Member of `EUTRAN_CSG_Target_Cell_t` (gsm_rlcmac.h) -/
abbrev EUTRAN_CSG_Target_Cell_t.Tracking_Area_Code : Nat := 1025
/-- Member of `EUTRAN_CSG_Target_Cell_t` (gsm_rlcmac.h) -/
abbrev EUTRAN_CSG_Target_Cell_t.Exist_PLMN_ID : Nat := 1026
/-- Member of `EUTRAN_CSG_Target_Cell_t` (gsm_rlcmac.h) -/
abbrev EUTRAN_CSG_Target_Cell_t.PLMN_ID : Nat := 1027
/-- Member of `PCCF_AdditionsR9_t` (gsm_rlcmac.h) -/
abbrev PCCF_AdditionsR9_t.Exist_UTRAN_CSG_Target_Cell : Nat := 1028
/-- Member of `PCCF_AdditionsR9_t` (gsm_rlcmac.h) -/
abbrev PCCF_AdditionsR9_t.UTRAN_CSG_Target_Cell : Nat := 1029
/-- Member of `PCCF_AdditionsR9_t` (gsm_rlcmac.h) -/
abbrev PCCF_AdditionsR9_t.Exist_EUTRAN_CSG_Target_Cell : Nat := 1030
/-- Member of `PCCF_AdditionsR9_t` (gsm_rlcmac.h) -/
abbrev PCCF_AdditionsR9_t.EUTRAN_CSG_Target_Cell : Nat := 1031
/-- Member of `PCCF_AdditionsR8_t` (gsm_rlcmac.h) -/
abbrev PCCF_AdditionsR8_t.Exist_EUTRAN_Target_Cell : Nat := 1032
/-- Member of `PCCF_AdditionsR8_t` (gsm_rlcmac.h) -/
abbrev PCCF_AdditionsR8_t.EUTRAN_Target_Cell : Nat := 1033
/-- Member of `PCCF_AdditionsR8_t` (gsm_rlcmac.h) -/
abbrev PCCF_AdditionsR8_t.Exist_AdditionsR9 : Nat := 1034
/-- Member of `PCCF_AdditionsR8_t` (gsm_rlcmac.h) -/
abbrev PCCF_AdditionsR8_t.AdditionsR9 : Nat := 1035
/-- Member of `PCCF_AdditionsR5_t` (gsm_rlcmac.h) -/
abbrev PCCF_AdditionsR5_t.Exist_G_RNTI_extension : Nat := 1036
/-- Member of `PCCF_AdditionsR5_t` (gsm_rlcmac.h) -/
abbrev PCCF_AdditionsR5_t.G_RNTI_extension : Nat := 1037
/-- Member of `PCCF_AdditionsR5_t` (gsm_rlcmac.h) -/
abbrev PCCF_AdditionsR5_t.Exist_AdditionsR8 : Nat := 1038
/-- Member of `PCCF_AdditionsR5_t` (gsm_rlcmac.h) -/
abbrev PCCF_AdditionsR5_t.AdditionsR8 : Nat := 1039
/-- Member of `PCCF_AdditionsR99_t` (gsm_rlcmac.h) -/
abbrev PCCF_AdditionsR99_t.Exist_FDD_Description : Nat := 1040
/-- Member of `PCCF_AdditionsR99_t` (gsm_rlcmac.h) -/
abbrev PCCF_AdditionsR99_t.FDD_Target_Cell : Nat := 1041
/-- Member of `PCCF_AdditionsR99_t` (gsm_rlcmac.h) -/
abbrev PCCF_AdditionsR99_t.Exist_TDD_Description : Nat := 1042
/-- Member of `PCCF_AdditionsR99_t` (gsm_rlcmac.h) -/
abbrev PCCF_AdditionsR99_t.TDD_Target_Cell : Nat := 1043
/-- Member of `PCCF_AdditionsR99_t` (gsm_rlcmac.h) -/
abbrev PCCF_AdditionsR99_t.Exist_AdditionsR5 : Nat := 1044
/-- Member of `PCCF_AdditionsR99_t` (gsm_rlcmac.h) -/
abbrev PCCF_AdditionsR99_t.AdditionsR5 : Nat := 1045
/-- Member of `Packet_Cell_Change_Failure_t` (gsm_rlcmac.h) -/
abbrev Packet_Cell_Change_Failure_t.PayloadType : Nat := 1046
/-- Member of `Packet_Cell_Change_Failure_t` (gsm_rlcmac.h) -/
abbrev Packet_Cell_Change_Failure_t.spare : Nat := 1047
/-- Member of `Packet_Cell_Change_Failure_t` (gsm_rlcmac.h) -/
abbrev Packet_Cell_Change_Failure_t.R : Nat := 1048
/-- Member of `Packet_Cell_Change_Failure_t` (gsm_rlcmac.h) -/
abbrev Packet_Cell_Change_Failure_t.MESSAGE_TYPE : Nat := 1049
/-- Member of `Packet_Cell_Change_Failure_t` (gsm_rlcmac.h) -/
abbrev Packet_Cell_Change_Failure_t.TLLI : Nat := 1050
/-- Member of `Packet_Cell_Change_Failure_t` (gsm_rlcmac.h) -/
abbrev Packet_Cell_Change_Failure_t.ARFCN : Nat := 1051
/-- Member of `Packet_Cell_Change_Failure_t` (gsm_rlcmac.h) -/
abbrev Packet_Cell_Change_Failure_t.BSIC : Nat := 1052
/-- Member of `Packet_Cell_Change_Failure_t` (gsm_rlcmac.h) -/
abbrev Packet_Cell_Change_Failure_t.CAUSE : Nat := 1053
/-- Member of `Packet_Cell_Change_Failure_t` (gsm_rlcmac.h) -/
abbrev Packet_Cell_Change_Failure_t.Exist_AdditionsR99 : Nat := 1054
/-- Member of `Packet_Cell_Change_Failure_t` (gsm_rlcmac.h) -/
abbrev Packet_Cell_Change_Failure_t.AdditionsR99 : Nat := 1055
/-- Member of `Packet_Control_Acknowledgement_AdditionsR6_t` (gsm_rlcmac.h) -/
abbrev Packet_Control_Acknowledgement_AdditionsR6_t.Exist_CTRL_ACK_Extension : Nat := 1056
/-- Member of `Packet_Control_Acknowledgement_AdditionsR6_t` (gsm_rlcmac.h) -/
abbrev Packet_Control_Acknowledgement_AdditionsR6_t.CTRL_ACK_Extension : Nat := 1057
/-- Member of `Packet_Control_Acknowledgement_AdditionsR5_t` (gsm_rlcmac.h) -/
abbrev Packet_Control_Acknowledgement_AdditionsR5_t.Exist_TN_RRBP : Nat := 1058
/-- Member of `Packet_Control_Acknowledgement_AdditionsR5_t` (gsm_rlcmac.h) -/
abbrev Packet_Control_Acknowledgement_AdditionsR5_t.TN_RRBP : Nat := 1059
/-- Member of `Packet_Control_Acknowledgement_AdditionsR5_t` (gsm_rlcmac.h) -/
abbrev Packet_Control_Acknowledgement_AdditionsR5_t.Exist_G_RNTI_Extension : Nat := 1060
/-- Member of `Packet_Control_Acknowledgement_AdditionsR5_t` (gsm_rlcmac.h) -/
abbrev Packet_Control_Acknowledgement_AdditionsR5_t.G_RNTI_Extension : Nat := 1061
/-- Member of `Packet_Control_Acknowledgement_AdditionsR5_t` (gsm_rlcmac.h) -/
abbrev Packet_Control_Acknowledgement_AdditionsR5_t.Exist_AdditionsR6 : Nat := 1062
/-- Member of `Packet_Control_Acknowledgement_AdditionsR5_t` (gsm_rlcmac.h) -/
abbrev Packet_Control_Acknowledgement_AdditionsR5_t.AdditionsR6 : Nat := 1063
/-- Member of `Packet_Control_Acknowledgement_t` (gsm_rlcmac.h) -/
abbrev Packet_Control_Acknowledgement_t.PayloadType : Nat := 1064
/-- Member of `Packet_Control_Acknowledgement_t` (gsm_rlcmac.h) -/
abbrev Packet_Control_Acknowledgement_t.spare : Nat := 1065
/-- Member of `Packet_Control_Acknowledgement_t` (gsm_rlcmac.h) -/
abbrev Packet_Control_Acknowledgement_t.R : Nat := 1066
/-- Member of `Packet_Control_Acknowledgement_t` (gsm_rlcmac.h) -/
abbrev Packet_Control_Acknowledgement_t.MESSAGE_TYPE : Nat := 1067
/-- Member of `Packet_Control_Acknowledgement_t` (gsm_rlcmac.h) -/
abbrev Packet_Control_Acknowledgement_t.TLLI : Nat := 1068
/-- Member of `Packet_Control_Acknowledgement_t` (gsm_rlcmac.h) -/
abbrev Packet_Control_Acknowledgement_t.CTRL_ACK : Nat := 1069
/-- Member of `Packet_Control_Acknowledgement_t` (gsm_rlcmac.h) -/
abbrev Packet_Control_Acknowledgement_t.Exist_AdditionsR5 : Nat := 1070
/-- Member of `Packet_Control_Acknowledgement_t` (gsm_rlcmac.h) -/
abbrev Packet_Control_Acknowledgement_t.AdditionsR5 : Nat := 1071
/-- Member of `Ack_Nack_Description_t` (gsm_rlcmac.h) -/
abbrev Ack_Nack_Description_t.FINAL_ACK_INDICATION : Nat := 1072
/-- Member of `Ack_Nack_Description_t` (gsm_rlcmac.h) -/
abbrev Ack_Nack_Description_t.STARTING_SEQUENCE_NUMBER : Nat := 1073
/-- Member of `Ack_Nack_Description_t` (gsm_rlcmac.h) -/
abbrev Ack_Nack_Description_t.RECEIVED_BLOCK_BITMAP : Nat := 1074
/-- Member of `Channel_Request_Description_t` (gsm_rlcmac.h) -/
abbrev Channel_Request_Description_t.PEAK_THROUGHPUT_CLASS : Nat := 1075
/-- Member of `Channel_Request_Description_t` (gsm_rlcmac.h) -/
abbrev Channel_Request_Description_t.RADIO_PRIORITY : Nat := 1076
/-- Member of `Channel_Request_Description_t` (gsm_rlcmac.h) -/
abbrev Channel_Request_Description_t.RLC_MODE : Nat := 1077
/-- Member of `Channel_Request_Description_t` (gsm_rlcmac.h) -/
abbrev Channel_Request_Description_t.LLC_PDU_TYPE : Nat := 1078
/-- Member of `Channel_Request_Description_t` (gsm_rlcmac.h) -/
abbrev Channel_Request_Description_t.RLC_OCTET_COUNT : Nat := 1079
/-- Member of `Channel_Quality_Report_t` (gsm_rlcmac.h) -/
abbrev Channel_Quality_Report_t.C_VALUE : Nat := 1080
/-- Member of `Channel_Quality_Report_t` (gsm_rlcmac.h) -/
abbrev Channel_Quality_Report_t.RXQUAL : Nat := 1081
/-- Member of `Channel_Quality_Report_t` (gsm_rlcmac.h) -/
abbrev Channel_Quality_Report_t.SIGN_VAR : Nat := 1082
/-- `Slot[i].Exist` of `Channel_Quality_Report_t` (gsm_rlcmac.h) -/
abbrev Channel_Quality_Report_t.Slot_Exist (i : Nat) : Nat := 1083 + i
/-- `Slot[i].I_LEVEL_TN` of `Channel_Quality_Report_t` (gsm_rlcmac.h) -/
abbrev Channel_Quality_Report_t.Slot_I_LEVEL_TN (i : Nat) : Nat := 1091 + i
/-- Member of `PD_AckNack_AdditionsR99_t` (gsm_rlcmac.h) -/
abbrev PD_AckNack_AdditionsR99_t.Exist_PFI : Nat := 1099
/-- Member of `PD_AckNack_AdditionsR99_t` (gsm_rlcmac.h) -/
abbrev PD_AckNack_AdditionsR99_t.PFI : Nat := 1100
/-- Member of `Packet_Downlink_Ack_Nack_t` (gsm_rlcmac.h) -/
abbrev Packet_Downlink_Ack_Nack_t.PayloadType : Nat := 1101
/-- Member of `Packet_Downlink_Ack_Nack_t` (gsm_rlcmac.h) -/
abbrev Packet_Downlink_Ack_Nack_t.spare : Nat := 1102
/-- Member of `Packet_Downlink_Ack_Nack_t` (gsm_rlcmac.h) -/
abbrev Packet_Downlink_Ack_Nack_t.R : Nat := 1103
/-- Member of `Packet_Downlink_Ack_Nack_t` (gsm_rlcmac.h) -/
abbrev Packet_Downlink_Ack_Nack_t.MESSAGE_TYPE : Nat := 1104
/-- Member of `Packet_Downlink_Ack_Nack_t` (gsm_rlcmac.h) -/
abbrev Packet_Downlink_Ack_Nack_t.DOWNLINK_TFI : Nat := 1105
/-- Member of `Packet_Downlink_Ack_Nack_t` (gsm_rlcmac.h) -/
abbrev Packet_Downlink_Ack_Nack_t.Ack_Nack_Description : Nat := 1106
/-- Member of `Packet_Downlink_Ack_Nack_t` (gsm_rlcmac.h) -/
abbrev Packet_Downlink_Ack_Nack_t.Exist_Channel_Request_Description : Nat := 1107
/-- Member of `Packet_Downlink_Ack_Nack_t` (gsm_rlcmac.h) -/
abbrev Packet_Downlink_Ack_Nack_t.Channel_Request_Description : Nat := 1108
/-- Member of `Packet_Downlink_Ack_Nack_t` (gsm_rlcmac.h) -/
abbrev Packet_Downlink_Ack_Nack_t.Channel_Quality_Report : Nat := 1109
/-- Member of `Packet_Downlink_Ack_Nack_t` (gsm_rlcmac.h) -/
abbrev Packet_Downlink_Ack_Nack_t.Exist_AdditionsR99 : Nat := 1110
/-- Member of `Packet_Downlink_Ack_Nack_t` (gsm_rlcmac.h) -/
abbrev Packet_Downlink_Ack_Nack_t.AdditionsR99 : Nat := 1111
/-- Member of `Packet_Uplink_Dummy_Control_Block_t` (gsm_rlcmac.h) -/
abbrev Packet_Uplink_Dummy_Control_Block_t.PayloadType : Nat := 1112
/-- Member of `Packet_Uplink_Dummy_Control_Block_t` (gsm_rlcmac.h) -/
abbrev Packet_Uplink_Dummy_Control_Block_t.spare : Nat := 1113
/-- Member of `Packet_Uplink_Dummy_Control_Block_t` (gsm_rlcmac.h) -/
abbrev Packet_Uplink_Dummy_Control_Block_t.R : Nat := 1114
/-- Member of `Packet_Uplink_Dummy_Control_Block_t` (gsm_rlcmac.h) -/
abbrev Packet_Uplink_Dummy_Control_Block_t.MESSAGE_TYPE : Nat := 1115
/-- Member of `Packet_Uplink_Dummy_Control_Block_t` (gsm_rlcmac.h) -/
abbrev Packet_Uplink_Dummy_Control_Block_t.TLLI : Nat := 1116
/-- Member of `Serving_Cell_Data_t` (gsm_rlcmac.h) -/
abbrev Serving_Cell_Data_t.RXLEV_SERVING_CELL : Nat := 1117
/-- Member of `NC_Measurements_t` (gsm_rlcmac.h) -/
abbrev NC_Measurements_t.FREQUENCY_N : Nat := 1118
/-- Member of `NC_Measurements_t` (gsm_rlcmac.h) -/
abbrev NC_Measurements_t.Exist_BSIC_N : Nat := 1119
/-- Member of `NC_Measurements_t` (gsm_rlcmac.h) -/
abbrev NC_Measurements_t.BSIC_N : Nat := 1120
/-- Member of `NC_Measurements_t` (gsm_rlcmac.h) -/
abbrev NC_Measurements_t.RXLEV_N : Nat := 1121
/-- Member of `NC_Measurement_Report_t` (gsm_rlcmac.h) -/
abbrev NC_Measurement_Report_t.NC_MODE : Nat := 1122
/-- Member of `NC_Measurement_Report_t` (gsm_rlcmac.h) -/
abbrev NC_Measurement_Report_t.Serving_Cell_Data : Nat := 1123
/-- Member of `NC_Measurement_Report_t` (gsm_rlcmac.h) -/
abbrev NC_Measurement_Report_t.NUMBER_OF_NC_MEASUREMENTS : Nat := 1124
/-- Member of `NC_Measurement_Report_t` (gsm_rlcmac.h) -/
abbrev NC_Measurement_Report_t.NC_Measurements : Nat := 1125
/-- Member of `EXT_Measurement_Report_t` (gsm_rlcmac.h) -/
abbrev EXT_Measurement_Report_t.EXT_REPORTING_TYPE : Nat := 1126
/-- Member of `EXT_Measurement_Report_t` (gsm_rlcmac.h) -/
abbrev EXT_Measurement_Report_t.Exist_I_LEVEL : Nat := 1127
/-- `Slot[i].Exist` of `EXT_Measurement_Report_t` (gsm_rlcmac.h) -/
abbrev EXT_Measurement_Report_t.Slot_Exist (i : Nat) : Nat := 1128 + i
/-- `Slot[i].I_LEVEL` of `EXT_Measurement_Report_t` (gsm_rlcmac.h) -/
abbrev EXT_Measurement_Report_t.Slot_I_LEVEL (i : Nat) : Nat := 1136 + i
/-- Member of `EXT_Measurement_Report_t` (gsm_rlcmac.h) -/
abbrev EXT_Measurement_Report_t.NUMBER_OF_EXT_MEASUREMENTS : Nat := 1144
/-- Member of `EXT_Measurement_Report_t` (gsm_rlcmac.h) -/
abbrev EXT_Measurement_Report_t.EXT_Measurements : Nat := 1145
/-- Member of `BA_USED_t` (gsm_rlcmac.h) -/
abbrev BA_USED_t.BA_USED : Nat := 1146
/-- Member of `BA_USED_t` (gsm_rlcmac.h) -/
abbrev BA_USED_t.BA_USED_3G : Nat := 1147
/-- Member of `Measurements_3G_t` (gsm_rlcmac.h) -/
abbrev Measurements_3G_t.CELL_LIST_INDEX_3G : Nat := 1148
/-- Member of `Measurements_3G_t` (gsm_rlcmac.h) -/
abbrev Measurements_3G_t.REPORTING_QUANTITY : Nat := 1149
/-- Member of `EUTRAN_Measurement_Report_Body_t` (gsm_rlcmac.h) -/
abbrev EUTRAN_Measurement_Report_Body_t.EUTRAN_FREQUENCY_INDEX : Nat := 1150
/-- Member of `EUTRAN_Measurement_Report_Body_t` (gsm_rlcmac.h) -/
abbrev EUTRAN_Measurement_Report_Body_t.CELL_IDENTITY : Nat := 1151
/-- Member of `EUTRAN_Measurement_Report_Body_t` (gsm_rlcmac.h) -/
abbrev EUTRAN_Measurement_Report_Body_t.REPORTING_QUANTITY : Nat := 1152
/-- Member of `EUTRAN_Measurement_Report_t` (gsm_rlcmac.h) -/
abbrev EUTRAN_Measurement_Report_t.N_EUTRAN : Nat := 1153
/-- Member of `EUTRAN_Measurement_Report_t` (gsm_rlcmac.h) -/
abbrev EUTRAN_Measurement_Report_t.Report : Nat := 1154
/-- Member of `UTRAN_CSG_Measurement_Report_t` (gsm_rlcmac.h) -/
abbrev UTRAN_CSG_Measurement_Report_t.UTRAN_CGI : Nat := 1155
/-- Member of `UTRAN_CSG_Measurement_Report_t` (gsm_rlcmac.h) -/
abbrev UTRAN_CSG_Measurement_Report_t.Exist_PLMN_ID : Nat := 1156
/-- Member of `UTRAN_CSG_Measurement_Report_t` (gsm_rlcmac.h) -/
abbrev UTRAN_CSG_Measurement_Report_t.Plmn_ID : Nat := 1157
/-- Member of `UTRAN_CSG_Measurement_Report_t` (gsm_rlcmac.h) -/
abbrev UTRAN_CSG_Measurement_Report_t.CSG_ID : Nat := 1158
/-- Member of `UTRAN_CSG_Measurement_Report_t` (gsm_rlcmac.h) -/
abbrev UTRAN_CSG_Measurement_Report_t.Access_Mode : Nat := 1159
/-- Member of `UTRAN_CSG_Measurement_Report_t` (gsm_rlcmac.h) -/
abbrev UTRAN_CSG_Measurement_Report_t.REPORTING_QUANTITY : Nat := 1160
/-- Member of `EUTRAN_CSG_Measurement_Report_t` (gsm_rlcmac.h) -/
abbrev EUTRAN_CSG_Measurement_Report_t.EUTRAN_CGI : Nat := 1161
/-- Member of `EUTRAN_CSG_Measurement_Report_t` (gsm_rlcmac.h) -/
abbrev EUTRAN_CSG_Measurement_Report_t.Tracking_Area_Code : Nat := 1162
/-- Member of `EUTRAN_CSG_Measurement_Report_t` (gsm_rlcmac.h) -/
abbrev EUTRAN_CSG_Measurement_Report_t.Exist_PLMN_ID : Nat := 1163
/-- Member of `EUTRAN_CSG_Measurement_Report_t` (gsm_rlcmac.h) -/
abbrev EUTRAN_CSG_Measurement_Report_t.Plmn_ID : Nat := 1164
/-- Member of `EUTRAN_CSG_Measurement_Report_t` (gsm_rlcmac.h) -/
abbrev EUTRAN_CSG_Measurement_Report_t.CSG_ID : Nat := 1165
/-- Member of `EUTRAN_CSG_Measurement_Report_t` (gsm_rlcmac.h) -/
abbrev EUTRAN_CSG_Measurement_Report_t.Access_Mode : Nat := 1166
/-- Member of `EUTRAN_CSG_Measurement_Report_t` (gsm_rlcmac.h) -/
abbrev EUTRAN_CSG_Measurement_Report_t.REPORTING_QUANTITY : Nat := 1167
/-- Member of `PMR_AdditionsR9_t` (gsm_rlcmac.h) -/
abbrev PMR_AdditionsR9_t.Exist_UTRAN_CSG_Meas_Rpt : Nat := 1168
/-- Member of `PMR_AdditionsR9_t` (gsm_rlcmac.h) -/
abbrev PMR_AdditionsR9_t.UTRAN_CSG_Meas_Rpt : Nat := 1169
/-- Member of `PMR_AdditionsR9_t` (gsm_rlcmac.h) -/
abbrev PMR_AdditionsR9_t.Exist_EUTRAN_CSG_Meas_Rpt : Nat := 1170
/-- Member of `PMR_AdditionsR9_t` (gsm_rlcmac.h) -/
abbrev PMR_AdditionsR9_t.EUTRAN_CSG_Meas_Rpt : Nat := 1171
/-- Member of `PMR_AdditionsR8_t` (gsm_rlcmac.h) -/
abbrev PMR_AdditionsR8_t.Exist_EUTRAN_Meas_Rpt : Nat := 1172
/-- Member of `PMR_AdditionsR8_t` (gsm_rlcmac.h) -/
abbrev PMR_AdditionsR8_t.EUTRAN_Meas_Rpt : Nat := 1173
/-- Member of `PMR_AdditionsR8_t` (gsm_rlcmac.h) -/
abbrev PMR_AdditionsR8_t.Exist_AdditionsR9 : Nat := 1174
/-- Member of `PMR_AdditionsR8_t` (gsm_rlcmac.h) -/
abbrev PMR_AdditionsR8_t.AdditionsR9 : Nat := 1175
/-- Member of `PMR_AdditionsR5_t` (gsm_rlcmac.h) -/
abbrev PMR_AdditionsR5_t.Exist_GRNTI : Nat := 1176
/-- Member of `PMR_AdditionsR5_t` (gsm_rlcmac.h) -/
abbrev PMR_AdditionsR5_t.GRNTI : Nat := 1177
/-- Member of `PMR_AdditionsR5_t` (gsm_rlcmac.h) -/
abbrev PMR_AdditionsR5_t.Exist_AdditionsR8 : Nat := 1178
/-- Member of `PMR_AdditionsR5_t` (gsm_rlcmac.h) -/
abbrev PMR_AdditionsR5_t.AdditionsR8 : Nat := 1179
/-- Member of `PMR_AdditionsR99_t` (gsm_rlcmac.h) -/
abbrev PMR_AdditionsR99_t.Exist_Info3G : Nat := 1180
/-- Member of `PMR_AdditionsR99_t` (gsm_rlcmac.h) -/
abbrev PMR_AdditionsR99_t.u_BA_USED : Nat := 1181
/-- Member of `PMR_AdditionsR99_t` (gsm_rlcmac.h) -/
abbrev PMR_AdditionsR99_t.u_PSI3_CHANGE_MARK : Nat := 1182
/-- Member of `PMR_AdditionsR99_t` (gsm_rlcmac.h) -/
abbrev PMR_AdditionsR99_t.UnionType : Nat := 1183
/-- Member of `PMR_AdditionsR99_t` (gsm_rlcmac.h) -/
abbrev PMR_AdditionsR99_t.PMO_USED : Nat := 1184
/-- Member of `PMR_AdditionsR99_t` (gsm_rlcmac.h) -/
abbrev PMR_AdditionsR99_t.Exist_MeasurementReport3G : Nat := 1185
/-- Member of `PMR_AdditionsR99_t` (gsm_rlcmac.h) -/
abbrev PMR_AdditionsR99_t.N_3G : Nat := 1186
/-- Member of `PMR_AdditionsR99_t` (gsm_rlcmac.h) -/
abbrev PMR_AdditionsR99_t.Measurements_3G : Nat := 1187
/-- Member of `PMR_AdditionsR99_t` (gsm_rlcmac.h) -/
abbrev PMR_AdditionsR99_t.Exist_AdditionsR5 : Nat := 1188
/-- Member of `PMR_AdditionsR99_t` (gsm_rlcmac.h) -/
abbrev PMR_AdditionsR99_t.AdditionsR5 : Nat := 1189
/-- Member of `Packet_Measurement_Report_t` (gsm_rlcmac.h) -/
abbrev Packet_Measurement_Report_t.PayloadType : Nat := 1190
/-- Member of `Packet_Measurement_Report_t` (gsm_rlcmac.h) -/
abbrev Packet_Measurement_Report_t.spare : Nat := 1191
/-- Member of `Packet_Measurement_Report_t` (gsm_rlcmac.h) -/
abbrev Packet_Measurement_Report_t.R : Nat := 1192
/-- Member of `Packet_Measurement_Report_t` (gsm_rlcmac.h) -/
abbrev Packet_Measurement_Report_t.MESSAGE_TYPE : Nat := 1193
/-- Member of `Packet_Measurement_Report_t` (gsm_rlcmac.h) -/
abbrev Packet_Measurement_Report_t.TLLI : Nat := 1194
/-- Member of `Packet_Measurement_Report_t` (gsm_rlcmac.h) -/
abbrev Packet_Measurement_Report_t.Exist_PSI5_CHANGE_MARK : Nat := 1195
/-- Member of `Packet_Measurement_Report_t` (gsm_rlcmac.h) -/
abbrev Packet_Measurement_Report_t.PSI5_CHANGE_MARK : Nat := 1196
/-- Member of `Packet_Measurement_Report_t` (gsm_rlcmac.h) -/
abbrev Packet_Measurement_Report_t.u_NC_Measurement_Report : Nat := 1197
/-- Member of `Packet_Measurement_Report_t` (gsm_rlcmac.h) -/
abbrev Packet_Measurement_Report_t.u_EXT_Measurement_Report : Nat := 1198
/-- Member of `Packet_Measurement_Report_t` (gsm_rlcmac.h) -/
abbrev Packet_Measurement_Report_t.UnionType : Nat := 1199
/-- Member of `Packet_Measurement_Report_t` (gsm_rlcmac.h) -/
abbrev Packet_Measurement_Report_t.Exist_AdditionsR99 : Nat := 1200
/-- Member of `Packet_Measurement_Report_t` (gsm_rlcmac.h) -/
abbrev Packet_Measurement_Report_t.AdditionsR99 : Nat := 1201
/-- Member of `Global_TFI_t` (gsm_rlcmac.h) -/
abbrev Global_TFI_t.u_UPLINK_TFI : Nat := 1202
/-- Member of `Global_TFI_t` (gsm_rlcmac.h) -/
abbrev Global_TFI_t.u_DOWNLINK_TFI : Nat := 1203
/-- Member of `Global_TFI_t` (gsm_rlcmac.h) -/
abbrev Global_TFI_t.UnionType : Nat := 1204
/-- Member of `PacketResourceRequestID_t` (gsm_rlcmac.h) -/
abbrev PacketResourceRequestID_t.u_Global_TFI : Nat := 1205
/-- Member of `PacketResourceRequestID_t` (gsm_rlcmac.h) -/
abbrev PacketResourceRequestID_t.u_TLLI : Nat := 1206
/-- Member of `PacketResourceRequestID_t` (gsm_rlcmac.h) -/
abbrev PacketResourceRequestID_t.UnionType : Nat := 1207
/-- Member of `DTM_EGPRS_t` (gsm_rlcmac.h) -/
abbrev DTM_EGPRS_t.Exist_DTM_EGPRS_multislot_class : Nat := 1208
/-- Member of `DTM_EGPRS_t` (gsm_rlcmac.h) -/
abbrev DTM_EGPRS_t.DTM_EGPRS_multislot_class : Nat := 1209
/-- Member of `Multislot_capability_t` (gsm_rlcmac.h) -/
abbrev Multislot_capability_t.Exist_HSCSD_multislot_class : Nat := 1210
/-- Member of `Multislot_capability_t` (gsm_rlcmac.h) -/
abbrev Multislot_capability_t.HSCSD_multislot_class : Nat := 1211
/-- Member of `Multislot_capability_t` (gsm_rlcmac.h) -/
abbrev Multislot_capability_t.Exist_GPRS_multislot_class : Nat := 1212
/-- Member of `Multislot_capability_t` (gsm_rlcmac.h) -/
abbrev Multislot_capability_t.GPRS_multislot_class : Nat := 1213
/-- Member of `Multislot_capability_t` (gsm_rlcmac.h) -/
abbrev Multislot_capability_t.GPRS_Extended_Dynamic_Allocation_Capability : Nat := 1214
/-- Member of `Multislot_capability_t` (gsm_rlcmac.h) -/
abbrev Multislot_capability_t.Exist_SM : Nat := 1215
/-- Member of `Multislot_capability_t` (gsm_rlcmac.h) -/
abbrev Multislot_capability_t.SMS_VALUE : Nat := 1216
/-- Member of `Multislot_capability_t` (gsm_rlcmac.h) -/
abbrev Multislot_capability_t.SM_VALUE : Nat := 1217
/-- Member of `Multislot_capability_t` (gsm_rlcmac.h) -/
abbrev Multislot_capability_t.Exist_ECSD_multislot_class : Nat := 1218
/-- Member of `Multislot_capability_t` (gsm_rlcmac.h) -/
abbrev Multislot_capability_t.ECSD_multislot_class : Nat := 1219
/-- Member of `Multislot_capability_t` (gsm_rlcmac.h) -/
abbrev Multislot_capability_t.Exist_EGPRS_multislot_class : Nat := 1220
/-- Member of `Multislot_capability_t` (gsm_rlcmac.h) -/
abbrev Multislot_capability_t.EGPRS_multislot_class : Nat := 1221
/-- Member of `Multislot_capability_t` (gsm_rlcmac.h) -/
abbrev Multislot_capability_t.EGPRS_Extended_Dynamic_Allocation_Capability : Nat := 1222
/-- Member of `Multislot_capability_t` (gsm_rlcmac.h) -/
abbrev Multislot_capability_t.Exist_DTM_GPRS_multislot_class : Nat := 1223
/-- Member of `Multislot_capability_t` (gsm_rlcmac.h) -/
abbrev Multislot_capability_t.DTM_GPRS_multislot_class : Nat := 1224
/-- Member of `Multislot_capability_t` (gsm_rlcmac.h) -/
abbrev Multislot_capability_t.Single_Slot_DTM : Nat := 1225
/-- Member of `Multislot_capability_t` (gsm_rlcmac.h) -/
abbrev Multislot_capability_t.DTM_EGPRS_Params : Nat := 1226
/-- Member of `DTM_EGPRS_HighMultislotClass_t` (gsm_rlcmac.h) -/
abbrev DTM_EGPRS_HighMultislotClass_t.Exist_DTM_EGPRS_HighMultislotClass : Nat := 1227
/-- Member of `DTM_EGPRS_HighMultislotClass_t` (gsm_rlcmac.h) -/
abbrev DTM_EGPRS_HighMultislotClass_t.DTM_EGPRS_HighMultislotClass : Nat := 1228
/-- Member of `DownlinkDualCarrierCapability_r7_t` (gsm_rlcmac.h) -/
abbrev DownlinkDualCarrierCapability_r7_t.MultislotCapabilityReductionForDL_DualCarrier : Nat := 1229
/-- Member of `DownlinkDualCarrierCapability_r7_t` (gsm_rlcmac.h) -/
abbrev DownlinkDualCarrierCapability_r7_t.DL_DualCarrierForDTM : Nat := 1230
/-- Member of `Content_t` (gsm_rlcmac.h) -/
abbrev Content_t.RF_Power_Capability : Nat := 1231
/-- Member of `Content_t` (gsm_rlcmac.h) -/
abbrev Content_t.Exist_A5_bits : Nat := 1232
/-- Member of `Content_t` (gsm_rlcmac.h) -/
abbrev Content_t.A5_bits : Nat := 1233
/-- Member of `Content_t` (gsm_rlcmac.h) -/
abbrev Content_t.ES_IND : Nat := 1234
/-- Member of `Content_t` (gsm_rlcmac.h) -/
abbrev Content_t.PS : Nat := 1235
/-- Member of `Content_t` (gsm_rlcmac.h) -/
abbrev Content_t.VGCS : Nat := 1236
/-- Member of `Content_t` (gsm_rlcmac.h) -/
abbrev Content_t.VBS : Nat := 1237
/-- Member of `Content_t` (gsm_rlcmac.h) -/
abbrev Content_t.Exist_Multislot_capability : Nat := 1238
/-- Member of `Content_t` (gsm_rlcmac.h) -/
abbrev Content_t.Multislot_capability : Nat := 1239
/-- Member of `Content_t` (gsm_rlcmac.h) -/
abbrev Content_t.Exist_Eight_PSK_Power_Capability : Nat := 1240
/-- Member of `Content_t` (gsm_rlcmac.h) -/
abbrev Content_t.Eight_PSK_Power_Capability : Nat := 1241
/-- Member of `Content_t` (gsm_rlcmac.h) -/
abbrev Content_t.COMPACT_Interference_Measurement_Capability : Nat := 1242
/-- Member of `Content_t` (gsm_rlcmac.h) -/
abbrev Content_t.Revision_Level_Indicator : Nat := 1243
/-- Member of `Content_t` (gsm_rlcmac.h) -/
abbrev Content_t.UMTS_FDD_Radio_Access_Technology_Capability : Nat := 1244
/-- Member of `Content_t` (gsm_rlcmac.h) -/
abbrev Content_t.UMTS_384_TDD_Radio_Access_Technology_Capability : Nat := 1245
/-- Member of `Content_t` (gsm_rlcmac.h) -/
abbrev Content_t.CDMA2000_Radio_Access_Technology_Capability : Nat := 1246
/-- Member of `Content_t` (gsm_rlcmac.h) -/
abbrev Content_t.UMTS_128_TDD_Radio_Access_Technology_Capability : Nat := 1247
/-- Member of `Content_t` (gsm_rlcmac.h) -/
abbrev Content_t.GERAN_Feature_Package_1 : Nat := 1248
/-- Member of `Content_t` (gsm_rlcmac.h) -/
abbrev Content_t.Exist_Extended_DTM_multislot_class : Nat := 1249
/-- Member of `Content_t` (gsm_rlcmac.h) -/
abbrev Content_t.Extended_DTM_GPRS_multislot_class : Nat := 1250
/-- Member of `Content_t` (gsm_rlcmac.h) -/
abbrev Content_t.Extended_DTM_EGPRS_multislot_class : Nat := 1251
/-- Member of `Content_t` (gsm_rlcmac.h) -/
abbrev Content_t.Modulation_based_multislot_class_support : Nat := 1252
/-- Member of `Content_t` (gsm_rlcmac.h) -/
abbrev Content_t.Exist_HighMultislotCapability : Nat := 1253
/-- Member of `Content_t` (gsm_rlcmac.h) -/
abbrev Content_t.HighMultislotCapability : Nat := 1254
/-- Member of `Content_t` (gsm_rlcmac.h) -/
abbrev Content_t.Exist_GERAN_lu_ModeCapability : Nat := 1255
/-- Member of `Content_t` (gsm_rlcmac.h) -/
abbrev Content_t.GERAN_lu_ModeCapability : Nat := 1256
/-- Member of `Content_t` (gsm_rlcmac.h) -/
abbrev Content_t.GMSK_MultislotPowerProfile : Nat := 1257
/-- Member of `Content_t` (gsm_rlcmac.h) -/
abbrev Content_t.EightPSK_MultislotProfile : Nat := 1258
/-- Member of `Content_t` (gsm_rlcmac.h) -/
abbrev Content_t.MultipleTBF_Capability : Nat := 1259
/-- Member of `Content_t` (gsm_rlcmac.h) -/
abbrev Content_t.DownlinkAdvancedReceiverPerformance : Nat := 1260
/-- Member of `Content_t` (gsm_rlcmac.h) -/
abbrev Content_t.ExtendedRLC_MAC_ControlMessageSegmentionsCapability : Nat := 1261
/-- Member of `Content_t` (gsm_rlcmac.h) -/
abbrev Content_t.DTM_EnhancementsCapability : Nat := 1262
/-- Member of `Content_t` (gsm_rlcmac.h) -/
abbrev Content_t.Exist_DTM_GPRS_HighMultislotClass : Nat := 1263
/-- Member of `Content_t` (gsm_rlcmac.h) -/
abbrev Content_t.DTM_GPRS_HighMultislotClass : Nat := 1264
/-- Member of `Content_t` (gsm_rlcmac.h) -/
abbrev Content_t.DTM_EGPRS_HighMultislotClass : Nat := 1265
/-- Member of `Content_t` (gsm_rlcmac.h) -/
abbrev Content_t.PS_HandoverCapability : Nat := 1266
/-- Member of `Content_t` (gsm_rlcmac.h) -/
abbrev Content_t.DTM_Handover_Capability : Nat := 1267
/-- Member of `Content_t` (gsm_rlcmac.h) -/
abbrev Content_t.Exist_DownlinkDualCarrierCapability_r7 : Nat := 1268
/-- Member of `Content_t` (gsm_rlcmac.h) -/
abbrev Content_t.DownlinkDualCarrierCapability_r7 : Nat := 1269
/-- Member of `Content_t` (gsm_rlcmac.h) -/
abbrev Content_t.FlexibleTimeslotAssignment : Nat := 1270
/-- Member of `Content_t` (gsm_rlcmac.h) -/
abbrev Content_t.GAN_PS_HandoverCapability : Nat := 1271
/-- Member of `Content_t` (gsm_rlcmac.h) -/
abbrev Content_t.RLC_Non_persistentMode : Nat := 1272
/-- Member of `Content_t` (gsm_rlcmac.h) -/
abbrev Content_t.ReducedLatencyCapability : Nat := 1273
/-- Member of `Content_t` (gsm_rlcmac.h) -/
abbrev Content_t.UplinkEGPRS2 : Nat := 1274
/-- Member of `Content_t` (gsm_rlcmac.h) -/
abbrev Content_t.DownlinkEGPRS2 : Nat := 1275
/-- Member of `Content_t` (gsm_rlcmac.h) -/
abbrev Content_t.EUTRA_FDD_Support : Nat := 1276
/-- Member of `Content_t` (gsm_rlcmac.h) -/
abbrev Content_t.EUTRA_TDD_Support : Nat := 1277
/-- Member of `Content_t` (gsm_rlcmac.h) -/
abbrev Content_t.GERAN_To_EUTRAN_supportInGERAN_PTM : Nat := 1278
/-- Member of `Content_t` (gsm_rlcmac.h) -/
abbrev Content_t.PriorityBasedReselectionSupport : Nat := 1279
/-- Member of `Additional_access_technologies_struct_t` (gsm_rlcmac.h) -/
abbrev Additional_access_technologies_struct_t.Access_Technology_Type : Nat := 1280
/-- Member of `Additional_access_technologies_struct_t` (gsm_rlcmac.h) -/
abbrev Additional_access_technologies_struct_t.GMSK_Power_class : Nat := 1281
/-- Member of `Additional_access_technologies_struct_t` (gsm_rlcmac.h) -/
abbrev Additional_access_technologies_struct_t.Eight_PSK_Power_class : Nat := 1282
/-- Member of `Additional_access_technologies_t` (gsm_rlcmac.h) -/
abbrev Additional_access_technologies_t.Additional_access_technologies : Nat := 1283
/-- Member of `Additional_access_technologies_t` (gsm_rlcmac.h) -/
abbrev Additional_access_technologies_t.Count_additional_access_technologies : Nat := 1284
/-- Member of `MS_RA_capability_value_t` (gsm_rlcmac.h) -/
abbrev MS_RA_capability_value_t.u_Content : Nat := 1285
/-- Member of `MS_RA_capability_value_t` (gsm_rlcmac.h) -/
abbrev MS_RA_capability_value_t.u_Additional_access_technologies : Nat := 1286
/-- Member of `MS_RA_capability_value_t` (gsm_rlcmac.h) -/
abbrev MS_RA_capability_value_t.IndexOfAccTech : Nat := 1287
/-- Member of `MS_Radio_Access_capability_t` (gsm_rlcmac.h) -/
abbrev MS_Radio_Access_capability_t.MS_RA_capability_value : Nat := 1288
/-- Member of `MS_Radio_Access_capability_t` (gsm_rlcmac.h) -/
abbrev MS_Radio_Access_capability_t.Count_MS_RA_capability_value : Nat := 1289
/-- Member of `InterferenceMeasurementReport_t` (gsm_rlcmac.h) -/
abbrev InterferenceMeasurementReport_t.Exist : Nat := 1290
/-- Member of `InterferenceMeasurementReport_t` (gsm_rlcmac.h) -/
abbrev InterferenceMeasurementReport_t.I_LEVEL : Nat := 1291
/-- Member of `EGPRS_BEP_LinkQualityMeasurements_t` (gsm_rlcmac.h) -/
abbrev EGPRS_BEP_LinkQualityMeasurements_t.Exist_MEAN_CV_BEP_GMSK : Nat := 1292
/-- Member of `EGPRS_BEP_LinkQualityMeasurements_t` (gsm_rlcmac.h) -/
abbrev EGPRS_BEP_LinkQualityMeasurements_t.MEAN_BEP_GMSK : Nat := 1293
/-- Member of `EGPRS_BEP_LinkQualityMeasurements_t` (gsm_rlcmac.h) -/
abbrev EGPRS_BEP_LinkQualityMeasurements_t.CV_BEP_GMSK : Nat := 1294
/-- Member of `EGPRS_BEP_LinkQualityMeasurements_t` (gsm_rlcmac.h) -/
abbrev EGPRS_BEP_LinkQualityMeasurements_t.Exist_MEAN_CV_BEP_8PSK : Nat := 1295
/-- Member of `EGPRS_BEP_LinkQualityMeasurements_t` (gsm_rlcmac.h) -/
abbrev EGPRS_BEP_LinkQualityMeasurements_t.MEAN_BEP_8PSK : Nat := 1296
/-- Member of `EGPRS_BEP_LinkQualityMeasurements_t` (gsm_rlcmac.h) -/
abbrev EGPRS_BEP_LinkQualityMeasurements_t.CV_BEP_8PSK : Nat := 1297
/-- Member of `BEP_MeasurementReport_t` (gsm_rlcmac.h) -/
abbrev BEP_MeasurementReport_t.Exist : Nat := 1298
/-- Member of `BEP_MeasurementReport_t` (gsm_rlcmac.h) -/
abbrev BEP_MeasurementReport_t.u_MEAN_BEP_GMSK : Nat := 1299
/-- Member of `BEP_MeasurementReport_t` (gsm_rlcmac.h) -/
abbrev BEP_MeasurementReport_t.u_MEAN_BEP_8PSK : Nat := 1300
/-- Member of `BEP_MeasurementReport_t` (gsm_rlcmac.h) -/
abbrev BEP_MeasurementReport_t.UnionType : Nat := 1301
/-- Member of `EGPRS_TimeslotLinkQualityMeasurements_t` (gsm_rlcmac.h) -/
abbrev EGPRS_TimeslotLinkQualityMeasurements_t.Exist_BEP_MEASUREMENTS : Nat := 1302
/-- Member of `EGPRS_TimeslotLinkQualityMeasurements_t` (gsm_rlcmac.h) -/
abbrev EGPRS_TimeslotLinkQualityMeasurements_t.BEP_MEASUREMENTS : Nat := 1303
/-- Member of `EGPRS_TimeslotLinkQualityMeasurements_t` (gsm_rlcmac.h) -/
abbrev EGPRS_TimeslotLinkQualityMeasurements_t.Exist_INTERFERENCE_MEASUREMENTS : Nat := 1304
/-- Member of `EGPRS_TimeslotLinkQualityMeasurements_t` (gsm_rlcmac.h) -/
abbrev EGPRS_TimeslotLinkQualityMeasurements_t.INTERFERENCE_MEASUREMENTS : Nat := 1305
/-- Member of `IU_Mode_Channel_Request_Desk_t` (gsm_rlcmac.h) -/
abbrev IU_Mode_Channel_Request_Desk_t.RB_ID : Nat := 1306
/-- Member of `IU_Mode_Channel_Request_Desk_t` (gsm_rlcmac.h) -/
abbrev IU_Mode_Channel_Request_Desk_t.RADIO_PRIORITY : Nat := 1307
/-- Member of `IU_Mode_Channel_Request_Desk_t` (gsm_rlcmac.h) -/
abbrev IU_Mode_Channel_Request_Desk_t.Exist_RLC_BLOCK_COUNT : Nat := 1308
/-- Member of `IU_Mode_Channel_Request_Desk_t` (gsm_rlcmac.h) -/
abbrev IU_Mode_Channel_Request_Desk_t.RLC_BLOCK_COUNT : Nat := 1309
/-- Member of `IU_Mode_Channel_Request_Desk_t` (gsm_rlcmac.h) -/
abbrev IU_Mode_Channel_Request_Desk_t.Exist_Iu_Mode_ChRequestDesk : Nat := 1310
/-- Member of `IU_Mode_Channel_Request_Desk_RNTI_t` (gsm_rlcmac.h) -/
abbrev IU_Mode_Channel_Request_Desk_RNTI_t.Exist_G_RNTI_Extension : Nat := 1311
/-- Member of `IU_Mode_Channel_Request_Desk_RNTI_t` (gsm_rlcmac.h) -/
abbrev IU_Mode_Channel_Request_Desk_RNTI_t.G_RNTI_Extension : Nat := 1312
/-- Member of `IU_Mode_Channel_Request_Desk_RNTI_t` (gsm_rlcmac.h) -/
abbrev IU_Mode_Channel_Request_Desk_RNTI_t.IU_Mode_Channel_Request_Desk : Nat := 1313
/-- Member of `Ext_Channel_Request_desc_t` (gsm_rlcmac.h) -/
abbrev Ext_Channel_Request_desc_t.PFI : Nat := 1314
/-- Member of `Ext_Channel_Request_desc_t` (gsm_rlcmac.h) -/
abbrev Ext_Channel_Request_desc_t.RADIO_PRIORITY : Nat := 1315
/-- Member of `Ext_Channel_Request_desc_t` (gsm_rlcmac.h) -/
abbrev Ext_Channel_Request_desc_t.RLC_Mode : Nat := 1316
/-- Member of `Ext_Channel_Request_desc_t` (gsm_rlcmac.h) -/
abbrev Ext_Channel_Request_desc_t.Exist_LCC_PDU : Nat := 1317
/-- Member of `Ext_Channel_Request_desc_t` (gsm_rlcmac.h) -/
abbrev Ext_Channel_Request_desc_t.LCC_PDU : Nat := 1318
/-- Member of `Ext_Channel_Request_desc_t` (gsm_rlcmac.h) -/
abbrev Ext_Channel_Request_desc_t.Exist_Ext_Channel_Request_desc : Nat := 1319
/-- Member of `EGPRS_BEP_LinkQualityMeasurements_type2_t` (gsm_rlcmac.h) -/
abbrev EGPRS_BEP_LinkQualityMeasurements_type2_t.Exist_GMSK_MEAN_BEP : Nat := 1320
/-- Member of `EGPRS_BEP_LinkQualityMeasurements_type2_t` (gsm_rlcmac.h) -/
abbrev EGPRS_BEP_LinkQualityMeasurements_type2_t.GMSK_MEAN_BEP : Nat := 1321
/-- Member of `EGPRS_BEP_LinkQualityMeasurements_type2_t` (gsm_rlcmac.h) -/
abbrev EGPRS_BEP_LinkQualityMeasurements_type2_t.GMSK_CV_BEP : Nat := 1322
/-- Member of `EGPRS_BEP_LinkQualityMeasurements_type2_t` (gsm_rlcmac.h) -/
abbrev EGPRS_BEP_LinkQualityMeasurements_type2_t.Exist_8PSK_MEAN_BEP : Nat := 1323
/-- Member of `EGPRS_BEP_LinkQualityMeasurements_type2_t` (gsm_rlcmac.h) -/
abbrev EGPRS_BEP_LinkQualityMeasurements_type2_t.p8PSK_MEAN_BEP : Nat := 1324
/-- Member of `EGPRS_BEP_LinkQualityMeasurements_type2_t` (gsm_rlcmac.h) -/
abbrev EGPRS_BEP_LinkQualityMeasurements_type2_t.p8PSK_CV_BEP : Nat := 1325
/-- Member of `EGPRS_BEP_LinkQualityMeasurements_type2_t` (gsm_rlcmac.h) -/
abbrev EGPRS_BEP_LinkQualityMeasurements_type2_t.Exist_QPSK_MEAN_BEP : Nat := 1326
/-- Member of `EGPRS_BEP_LinkQualityMeasurements_type2_t` (gsm_rlcmac.h) -/
abbrev EGPRS_BEP_LinkQualityMeasurements_type2_t.QPSK_MEAN_BEP : Nat := 1327
/-- Member of `EGPRS_BEP_LinkQualityMeasurements_type2_t` (gsm_rlcmac.h) -/
abbrev EGPRS_BEP_LinkQualityMeasurements_type2_t.QPSK_CV_BEP : Nat := 1328
/-- Member of `EGPRS_BEP_LinkQualityMeasurements_type2_t` (gsm_rlcmac.h) -/
abbrev EGPRS_BEP_LinkQualityMeasurements_type2_t.Exist_16QAM_NSR_MEAN_BEP : Nat := 1329
/-- Member of `EGPRS_BEP_LinkQualityMeasurements_type2_t` (gsm_rlcmac.h) -/
abbrev EGPRS_BEP_LinkQualityMeasurements_type2_t.p16QAM_NSR_MEAN_BEP : Nat := 1330
/-- Member of `EGPRS_BEP_LinkQualityMeasurements_type2_t` (gsm_rlcmac.h) -/
abbrev EGPRS_BEP_LinkQualityMeasurements_type2_t.p16QAM_NSR_CV_BEP : Nat := 1331
/-- Member of `EGPRS_BEP_LinkQualityMeasurements_type2_t` (gsm_rlcmac.h) -/
abbrev EGPRS_BEP_LinkQualityMeasurements_type2_t.Exist_32QAM_NSR_MEAN_BEP : Nat := 1332
/-- Member of `EGPRS_BEP_LinkQualityMeasurements_type2_t` (gsm_rlcmac.h) -/
abbrev EGPRS_BEP_LinkQualityMeasurements_type2_t.p32QAM_NSR_MEAN_BEP : Nat := 1333
/-- Member of `EGPRS_BEP_LinkQualityMeasurements_type2_t` (gsm_rlcmac.h) -/
abbrev EGPRS_BEP_LinkQualityMeasurements_type2_t.p32QAM_NSR_CV_BEP : Nat := 1334
/-- Member of `EGPRS_BEP_LinkQualityMeasurements_type2_t` (gsm_rlcmac.h) -/
abbrev EGPRS_BEP_LinkQualityMeasurements_type2_t.Exist_16QAM_HSR_MEAN_BEP : Nat := 1335
/-- Member of `EGPRS_BEP_LinkQualityMeasurements_type2_t` (gsm_rlcmac.h) -/
abbrev EGPRS_BEP_LinkQualityMeasurements_type2_t.p16QAM_HSR_MEAN_BEP : Nat := 1336
/-- Member of `EGPRS_BEP_LinkQualityMeasurements_type2_t` (gsm_rlcmac.h) -/
abbrev EGPRS_BEP_LinkQualityMeasurements_type2_t.p16QAM_HSR_CV_BEP : Nat := 1337
/-- Member of `EGPRS_BEP_LinkQualityMeasurements_type2_t` (gsm_rlcmac.h) -/
abbrev EGPRS_BEP_LinkQualityMeasurements_type2_t.Exist_32QAM_HSR_MEAN_BEP : Nat := 1338
/-- Member of `EGPRS_BEP_LinkQualityMeasurements_type2_t` (gsm_rlcmac.h) -/
abbrev EGPRS_BEP_LinkQualityMeasurements_type2_t.p32QAM_HSR_MEAN_BEP : Nat := 1339
/-- Member of `EGPRS_BEP_LinkQualityMeasurements_type2_t` (gsm_rlcmac.h) -/
abbrev EGPRS_BEP_LinkQualityMeasurements_type2_t.p32QAM_HSR_CV_BEP : Nat := 1340
/-- Member of `BEP_MeasurementReport_type2_t` (gsm_rlcmac.h) -/
abbrev BEP_MeasurementReport_type2_t.Exist : Nat := 1341
/-- Member of `BEP_MeasurementReport_type2_t` (gsm_rlcmac.h) -/
abbrev BEP_MeasurementReport_type2_t.REPORTED_MODULATION : Nat := 1342
/-- Member of `BEP_MeasurementReport_type2_t` (gsm_rlcmac.h) -/
abbrev BEP_MeasurementReport_type2_t.MEAN_BEP_TN : Nat := 1343
/-- Member of `InterferenceMeasurementReport_type2_t` (gsm_rlcmac.h) -/
abbrev InterferenceMeasurementReport_type2_t.Exist : Nat := 1344
/-- Member of `InterferenceMeasurementReport_type2_t` (gsm_rlcmac.h) -/
abbrev InterferenceMeasurementReport_type2_t.I_LEVEL : Nat := 1345
/-- Member of `EGPRS_TimeslotLinkQualityMeasurements_type2_t` (gsm_rlcmac.h) -/
abbrev EGPRS_TimeslotLinkQualityMeasurements_type2_t.Exist_BEP_MEASUREMENTS : Nat := 1346
/-- Member of `EGPRS_TimeslotLinkQualityMeasurements_type2_t` (gsm_rlcmac.h) -/
abbrev EGPRS_TimeslotLinkQualityMeasurements_type2_t.BEP_MEASUREMENTS : Nat := 1347
/-- Member of `EGPRS_TimeslotLinkQualityMeasurements_type2_t` (gsm_rlcmac.h) -/
abbrev EGPRS_TimeslotLinkQualityMeasurements_type2_t.Exist_INTERFERENCE_MEASUREMENTS : Nat := 1348
/-- Member of `EGPRS_TimeslotLinkQualityMeasurements_type2_t` (gsm_rlcmac.h) -/
abbrev EGPRS_TimeslotLinkQualityMeasurements_type2_t.INTERFERENCE_MEASUREMENTS : Nat := 1349
/-- Member of `PRR_AdditionsR12_t` (gsm_rlcmac.h) -/
abbrev PRR_AdditionsR12_t.Exist_Downlink_eTFI : Nat := 1350
/-- Member of `PRR_AdditionsR12_t` (gsm_rlcmac.h) -/
abbrev PRR_AdditionsR12_t.DOWNLINK_ETFI : Nat := 1351
/-- Member of `PRR_AdditionsR10_t` (gsm_rlcmac.h) -/
abbrev PRR_AdditionsR10_t.LOW_ACCESS_PRIORITY_SIGNALLING : Nat := 1352
/-- Member of `PRR_AdditionsR10_t` (gsm_rlcmac.h) -/
abbrev PRR_AdditionsR10_t.Exist_AdditionsR12 : Nat := 1353
/-- Member of `PRR_AdditionsR10_t` (gsm_rlcmac.h) -/
abbrev PRR_AdditionsR10_t.AdditionsR12 : Nat := 1354
/-- Member of `PRR_AdditionsR7_t` (gsm_rlcmac.h) -/
abbrev PRR_AdditionsR7_t.EARLY_TBF_ESTABLISHMENT : Nat := 1355
/-- Member of `PRR_AdditionsR7_t` (gsm_rlcmac.h) -/
abbrev PRR_AdditionsR7_t.Exist_EGPRS_BEP_LinkQualityMeasurements_type2 : Nat := 1356
/-- Member of `PRR_AdditionsR7_t` (gsm_rlcmac.h) -/
abbrev PRR_AdditionsR7_t.EGPRS_BEP_LinkQualityMeasurements_type2 : Nat := 1357
/-- Member of `PRR_AdditionsR7_t` (gsm_rlcmac.h) -/
abbrev PRR_AdditionsR7_t.Exist_EGPRS_TimeslotLinkQualityMeasurements_type2 : Nat := 1358
/-- Member of `PRR_AdditionsR7_t` (gsm_rlcmac.h) -/
abbrev PRR_AdditionsR7_t.EGPRS_TimeslotLinkQualityMeasurements_type2 : Nat := 1359
/-- Member of `PRR_AdditionsR7_t` (gsm_rlcmac.h) -/
abbrev PRR_AdditionsR7_t.Exist_AdditionsR10 : Nat := 1360
/-- Member of `PRR_AdditionsR7_t` (gsm_rlcmac.h) -/
abbrev PRR_AdditionsR7_t.AdditionsR10 : Nat := 1361
/-- Member of `PRR_AdditionsR6_t` (gsm_rlcmac.h) -/
abbrev PRR_AdditionsR6_t.Exist_Ext_Channel_Request_desc : Nat := 1362
/-- Member of `PRR_AdditionsR6_t` (gsm_rlcmac.h) -/
abbrev PRR_AdditionsR6_t.Ext_Channel_Request_desc : Nat := 1363
/-- Member of `PRR_AdditionsR6_t` (gsm_rlcmac.h) -/
abbrev PRR_AdditionsR6_t.Exist_AdditionsR7 : Nat := 1364
/-- Member of `PRR_AdditionsR6_t` (gsm_rlcmac.h) -/
abbrev PRR_AdditionsR6_t.AdditionsR7 : Nat := 1365
/-- Member of `PRR_AdditionsR5_t` (gsm_rlcmac.h) -/
abbrev PRR_AdditionsR5_t.Exist_Iu_Mode_ChRequestDesk : Nat := 1366
/-- Member of `PRR_AdditionsR5_t` (gsm_rlcmac.h) -/
abbrev PRR_AdditionsR5_t.IU_Mode_Channel_Request_Desk_RNTI : Nat := 1367
/-- Member of `PRR_AdditionsR5_t` (gsm_rlcmac.h) -/
abbrev PRR_AdditionsR5_t.Exist_HFN_LSB : Nat := 1368
/-- Member of `PRR_AdditionsR5_t` (gsm_rlcmac.h) -/
abbrev PRR_AdditionsR5_t.HFN_LSb : Nat := 1369
/-- Member of `PRR_AdditionsR5_t` (gsm_rlcmac.h) -/
abbrev PRR_AdditionsR5_t.Exist_AdditionsR6 : Nat := 1370
/-- Member of `PRR_AdditionsR5_t` (gsm_rlcmac.h) -/
abbrev PRR_AdditionsR5_t.AdditionsR6 : Nat := 1371
/-- Member of `PRR_AdditionsR99_t` (gsm_rlcmac.h) -/
abbrev PRR_AdditionsR99_t.Exist_EGPRS_BEP_LinkQualityMeasurements : Nat := 1372
/-- Member of `PRR_AdditionsR99_t` (gsm_rlcmac.h) -/
abbrev PRR_AdditionsR99_t.EGPRS_BEP_LinkQualityMeasurements : Nat := 1373
/-- Member of `PRR_AdditionsR99_t` (gsm_rlcmac.h) -/
abbrev PRR_AdditionsR99_t.Exist_EGPRS_TimeslotLinkQualityMeasurements : Nat := 1374
/-- Member of `PRR_AdditionsR99_t` (gsm_rlcmac.h) -/
abbrev PRR_AdditionsR99_t.EGPRS_TimeslotLinkQualityMeasurements : Nat := 1375
/-- Member of `PRR_AdditionsR99_t` (gsm_rlcmac.h) -/
abbrev PRR_AdditionsR99_t.Exist_PFI : Nat := 1376
/-- Member of `PRR_AdditionsR99_t` (gsm_rlcmac.h) -/
abbrev PRR_AdditionsR99_t.PFI : Nat := 1377
/-- Member of `PRR_AdditionsR99_t` (gsm_rlcmac.h) -/
abbrev PRR_AdditionsR99_t.MS_RAC_AdditionalInformationAvailable : Nat := 1378
/-- Member of `PRR_AdditionsR99_t` (gsm_rlcmac.h) -/
abbrev PRR_AdditionsR99_t.RetransmissionOfPRR : Nat := 1379
/-- Member of `PRR_AdditionsR99_t` (gsm_rlcmac.h) -/
abbrev PRR_AdditionsR99_t.Exist_AdditionsR5 : Nat := 1380
/-- Member of `PRR_AdditionsR99_t` (gsm_rlcmac.h) -/
abbrev PRR_AdditionsR99_t.AdditionsR5 : Nat := 1381
/-- Member of `Packet_Resource_Request_t` (gsm_rlcmac.h) -/
abbrev Packet_Resource_Request_t.PayloadType : Nat := 1382
/-- Member of `Packet_Resource_Request_t` (gsm_rlcmac.h) -/
abbrev Packet_Resource_Request_t.spare : Nat := 1383
/-- Member of `Packet_Resource_Request_t` (gsm_rlcmac.h) -/
abbrev Packet_Resource_Request_t.R : Nat := 1384
/-- Member of `Packet_Resource_Request_t` (gsm_rlcmac.h) -/
abbrev Packet_Resource_Request_t.MESSAGE_TYPE : Nat := 1385
/-- Member of `Packet_Resource_Request_t` (gsm_rlcmac.h) -/
abbrev Packet_Resource_Request_t.Exist_ACCESS_TYPE : Nat := 1386
/-- Member of `Packet_Resource_Request_t` (gsm_rlcmac.h) -/
abbrev Packet_Resource_Request_t.ACCESS_TYPE : Nat := 1387
/-- Member of `Packet_Resource_Request_t` (gsm_rlcmac.h) -/
abbrev Packet_Resource_Request_t.ID : Nat := 1388
/-- Member of `Packet_Resource_Request_t` (gsm_rlcmac.h) -/
abbrev Packet_Resource_Request_t.Exist_MS_Radio_Access_capability2 : Nat := 1389
/-- Member of `Packet_Resource_Request_t` (gsm_rlcmac.h) -/
abbrev Packet_Resource_Request_t.MS_Radio_Access_capability2 : Nat := 1390
/-- Member of `Packet_Resource_Request_t` (gsm_rlcmac.h) -/
abbrev Packet_Resource_Request_t.Channel_Request_Description : Nat := 1391
/-- Member of `Packet_Resource_Request_t` (gsm_rlcmac.h) -/
abbrev Packet_Resource_Request_t.Exist_CHANGE_MARK : Nat := 1392
/-- Member of `Packet_Resource_Request_t` (gsm_rlcmac.h) -/
abbrev Packet_Resource_Request_t.CHANGE_MARK : Nat := 1393
/-- Member of `Packet_Resource_Request_t` (gsm_rlcmac.h) -/
abbrev Packet_Resource_Request_t.C_VALUE : Nat := 1394
/-- Member of `Packet_Resource_Request_t` (gsm_rlcmac.h) -/
abbrev Packet_Resource_Request_t.Exist_SIGN_VAR : Nat := 1395
/-- Member of `Packet_Resource_Request_t` (gsm_rlcmac.h) -/
abbrev Packet_Resource_Request_t.SIGN_VAR : Nat := 1396
/-- Member of `Packet_Resource_Request_t` (gsm_rlcmac.h) -/
abbrev Packet_Resource_Request_t.I_LEVEL_TN : Nat := 1397
/-- Member of `Packet_Resource_Request_t` (gsm_rlcmac.h) -/
abbrev Packet_Resource_Request_t.Exist_AdditionsR99 : Nat := 1398
/-- Member of `Packet_Resource_Request_t` (gsm_rlcmac.h) -/
abbrev Packet_Resource_Request_t.AdditionsR99 : Nat := 1399
/-- Member of `Packet_Mobile_TBF_Status_t` (gsm_rlcmac.h) -/
abbrev Packet_Mobile_TBF_Status_t.PayloadType : Nat := 1400
/-- Member of `Packet_Mobile_TBF_Status_t` (gsm_rlcmac.h) -/
abbrev Packet_Mobile_TBF_Status_t.spare : Nat := 1401
/-- Member of `Packet_Mobile_TBF_Status_t` (gsm_rlcmac.h) -/
abbrev Packet_Mobile_TBF_Status_t.R : Nat := 1402
/-- Member of `Packet_Mobile_TBF_Status_t` (gsm_rlcmac.h) -/
abbrev Packet_Mobile_TBF_Status_t.MESSAGE_TYPE : Nat := 1403
/-- Member of `Packet_Mobile_TBF_Status_t` (gsm_rlcmac.h) -/
abbrev Packet_Mobile_TBF_Status_t.Global_TFI : Nat := 1404
/-- Member of `Packet_Mobile_TBF_Status_t` (gsm_rlcmac.h) -/
abbrev Packet_Mobile_TBF_Status_t.TBF_CAUSE : Nat := 1405
/-- Member of `Packet_Mobile_TBF_Status_t` (gsm_rlcmac.h) -/
abbrev Packet_Mobile_TBF_Status_t.Exist_STATUS_MESSAGE_TYPE : Nat := 1406
/-- Member of `Packet_Mobile_TBF_Status_t` (gsm_rlcmac.h) -/
abbrev Packet_Mobile_TBF_Status_t.STATUS_MESSAGE_TYPE : Nat := 1407
/-- Member of `PSI_Message_t` (gsm_rlcmac.h) -/
abbrev PSI_Message_t.PSI_MESSAGE_TYPE : Nat := 1408
/-- Member of `PSI_Message_t` (gsm_rlcmac.h) -/
abbrev PSI_Message_t.PSIX_CHANGE_MARK : Nat := 1409
/-- Member of `PSI_Message_t` (gsm_rlcmac.h) -/
abbrev PSI_Message_t.Exist_PSIX_COUNT_and_Instance_Bitmap : Nat := 1410
/-- Member of `PSI_Message_List_t` (gsm_rlcmac.h) -/
abbrev PSI_Message_List_t.PSI_Message : Nat := 1411
/-- Member of `PSI_Message_List_t` (gsm_rlcmac.h) -/
abbrev PSI_Message_List_t.Count_PSI_Message : Nat := 1412
/-- Member of `PSI_Message_List_t` (gsm_rlcmac.h) -/
abbrev PSI_Message_List_t.ADDITIONAL_MSG_TYPE : Nat := 1413
/-- Member of `Unknown_PSI_Message_List_t` (gsm_rlcmac.h) -/
abbrev Unknown_PSI_Message_List_t.ADDITIONAL_MSG_TYPE : Nat := 1414
/-- Member of `Packet_PSI_Status_t` (gsm_rlcmac.h) -/
abbrev Packet_PSI_Status_t.PayloadType : Nat := 1415
/-- Member of `Packet_PSI_Status_t` (gsm_rlcmac.h) -/
abbrev Packet_PSI_Status_t.spare : Nat := 1416
/-- Member of `Packet_PSI_Status_t` (gsm_rlcmac.h) -/
abbrev Packet_PSI_Status_t.R : Nat := 1417
/-- Member of `Packet_PSI_Status_t` (gsm_rlcmac.h) -/
abbrev Packet_PSI_Status_t.MESSAGE_TYPE : Nat := 1418
/-- Member of `Packet_PSI_Status_t` (gsm_rlcmac.h) -/
abbrev Packet_PSI_Status_t.Global_TFI : Nat := 1419
/-- Member of `Packet_PSI_Status_t` (gsm_rlcmac.h) -/
abbrev Packet_PSI_Status_t.PBCCH_CHANGE_MARK : Nat := 1420
/-- Member of `Packet_PSI_Status_t` (gsm_rlcmac.h) -/
abbrev Packet_PSI_Status_t.PSI_Message_List : Nat := 1421
/-- Member of `Packet_PSI_Status_t` (gsm_rlcmac.h) -/
abbrev Packet_PSI_Status_t.Unknown_PSI_Message_List : Nat := 1422
/-- Member of `EGPRS_ChannelQualityReport_t` (gsm_rlcmac.h) -/
abbrev EGPRS_ChannelQualityReport_t.EGPRS_BEP_LinkQualityMeasurements : Nat := 1423
/-- Member of `EGPRS_ChannelQualityReport_t` (gsm_rlcmac.h) -/
abbrev EGPRS_ChannelQualityReport_t.C_VALUE : Nat := 1424
/-- Member of `EGPRS_ChannelQualityReport_t` (gsm_rlcmac.h) -/
abbrev EGPRS_ChannelQualityReport_t.EGPRS_TimeslotLinkQualityMeasurements : Nat := 1425
/-- Member of `Extension_Bits_t` (gsm_rlcmac.h) -/
abbrev Extension_Bits_t.extension_length : Nat := 1426
/-- Member of `Extension_Bits_t` (gsm_rlcmac.h) -/
abbrev Extension_Bits_t.Extension_Info : Nat := 1427
/-- Member of `EGPRS_AckNack_Desc_t` (gsm_rlcmac.h) -/
abbrev EGPRS_AckNack_Desc_t.FINAL_ACK_INDICATION : Nat := 1428
/-- Member of `EGPRS_AckNack_Desc_t` (gsm_rlcmac.h) -/
abbrev EGPRS_AckNack_Desc_t.BEGINNING_OF_WINDOW : Nat := 1429
/-- Member of `EGPRS_AckNack_Desc_t` (gsm_rlcmac.h) -/
abbrev EGPRS_AckNack_Desc_t.END_OF_WINDOW : Nat := 1430
/-- Member of `EGPRS_AckNack_Desc_t` (gsm_rlcmac.h) -/
abbrev EGPRS_AckNack_Desc_t.STARTING_SEQUENCE_NUMBER : Nat := 1431
/-- Member of `EGPRS_AckNack_Desc_t` (gsm_rlcmac.h) -/
abbrev EGPRS_AckNack_Desc_t.Exist_CRBB : Nat := 1432
/-- Member of `EGPRS_AckNack_Desc_t` (gsm_rlcmac.h) -/
abbrev EGPRS_AckNack_Desc_t.CRBB_LENGTH : Nat := 1433
/-- Member of `EGPRS_AckNack_Desc_t` (gsm_rlcmac.h) -/
abbrev EGPRS_AckNack_Desc_t.CRBB_STARTING_COLOR_CODE : Nat := 1434
/-- Member of `EGPRS_AckNack_Desc_t` (gsm_rlcmac.h) -/
abbrev EGPRS_AckNack_Desc_t.CRBB : Nat := 1435
/-- Member of `EGPRS_AckNack_Desc_t` (gsm_rlcmac.h) -/
abbrev EGPRS_AckNack_Desc_t.URBB : Nat := 1436
/-- Member of `EGPRS_AckNack_Desc_t` (gsm_rlcmac.h) -/
abbrev EGPRS_AckNack_Desc_t.URBB_LENGTH : Nat := 1437
/-- Member of `EGPRS_AckNack_t` (gsm_rlcmac.h) -/
abbrev EGPRS_AckNack_t.Desc : Nat := 1438
/-- Member of `EGPRS_AckNack_t` (gsm_rlcmac.h) -/
abbrev EGPRS_AckNack_t.UnionType : Nat := 1439
/-- Member of `EGPRS_PD_AckNack_t` (gsm_rlcmac.h) -/
abbrev EGPRS_PD_AckNack_t.PayloadType : Nat := 1440
/-- Member of `EGPRS_PD_AckNack_t` (gsm_rlcmac.h) -/
abbrev EGPRS_PD_AckNack_t.spare : Nat := 1441
/-- Member of `EGPRS_PD_AckNack_t` (gsm_rlcmac.h) -/
abbrev EGPRS_PD_AckNack_t.R : Nat := 1442
/-- Member of `EGPRS_PD_AckNack_t` (gsm_rlcmac.h) -/
abbrev EGPRS_PD_AckNack_t.MESSAGE_TYPE : Nat := 1443
/-- Member of `EGPRS_PD_AckNack_t` (gsm_rlcmac.h) -/
abbrev EGPRS_PD_AckNack_t.DOWNLINK_TFI : Nat := 1444
/-- Member of `EGPRS_PD_AckNack_t` (gsm_rlcmac.h) -/
abbrev EGPRS_PD_AckNack_t.MS_OUT_OF_MEMORY : Nat := 1445
/-- Member of `EGPRS_PD_AckNack_t` (gsm_rlcmac.h) -/
abbrev EGPRS_PD_AckNack_t.Exist_EGPRS_ChannelQualityReport : Nat := 1446
/-- Member of `EGPRS_PD_AckNack_t` (gsm_rlcmac.h) -/
abbrev EGPRS_PD_AckNack_t.EGPRS_ChannelQualityReport : Nat := 1447
/-- Member of `EGPRS_PD_AckNack_t` (gsm_rlcmac.h) -/
abbrev EGPRS_PD_AckNack_t.Exist_ChannelRequestDescription : Nat := 1448
/-- Member of `EGPRS_PD_AckNack_t` (gsm_rlcmac.h) -/
abbrev EGPRS_PD_AckNack_t.ChannelRequestDescription : Nat := 1449
/-- Member of `EGPRS_PD_AckNack_t` (gsm_rlcmac.h) -/
abbrev EGPRS_PD_AckNack_t.Exist_PFI : Nat := 1450
/-- Member of `EGPRS_PD_AckNack_t` (gsm_rlcmac.h) -/
abbrev EGPRS_PD_AckNack_t.PFI : Nat := 1451
/-- Member of `EGPRS_PD_AckNack_t` (gsm_rlcmac.h) -/
abbrev EGPRS_PD_AckNack_t.Exist_ExtensionBits : Nat := 1452
/-- Member of `EGPRS_PD_AckNack_t` (gsm_rlcmac.h) -/
abbrev EGPRS_PD_AckNack_t.ExtensionBits : Nat := 1453
/-- Member of `EGPRS_PD_AckNack_t` (gsm_rlcmac.h) -/
abbrev EGPRS_PD_AckNack_t.EGPRS_AckNack : Nat := 1454
/-- Member of `Packet_Pause_t` (gsm_rlcmac.h) -/
abbrev Packet_Pause_t.MESSAGE_TYPE : Nat := 1455
/-- Member of `Packet_Pause_t` (gsm_rlcmac.h) -/
abbrev Packet_Pause_t.TLLI : Nat := 1456
/-- Member of `Packet_Pause_t` (gsm_rlcmac.h) -/
abbrev Packet_Pause_t.RAI : Nat := 1457
/-- Member of `RepeatedInvalid_BSIC_Info_t` (gsm_rlcmac.h) -/
abbrev RepeatedInvalid_BSIC_Info_t.BCCH_FREQ_N : Nat := 1458
/-- Member of `RepeatedInvalid_BSIC_Info_t` (gsm_rlcmac.h) -/
abbrev RepeatedInvalid_BSIC_Info_t.BSIC_N : Nat := 1459
/-- Member of `RepeatedInvalid_BSIC_Info_t` (gsm_rlcmac.h) -/
abbrev RepeatedInvalid_BSIC_Info_t.RXLEV_N : Nat := 1460
/-- Member of `REPORTING_QUANTITY_Instance_t` (gsm_rlcmac.h) -/
abbrev REPORTING_QUANTITY_Instance_t.Exist_REPORTING_QUANTITY : Nat := 1461
/-- Member of `REPORTING_QUANTITY_Instance_t` (gsm_rlcmac.h) -/
abbrev REPORTING_QUANTITY_Instance_t.REPORTING_QUANTITY : Nat := 1462
/-- Member of `ENH_NC_Measurement_Report_t` (gsm_rlcmac.h) -/
abbrev ENH_NC_Measurement_Report_t.NC_MODE : Nat := 1463
/-- Member of `ENH_NC_Measurement_Report_t` (gsm_rlcmac.h) -/
abbrev ENH_NC_Measurement_Report_t.u_BA_USED : Nat := 1464
/-- Member of `ENH_NC_Measurement_Report_t` (gsm_rlcmac.h) -/
abbrev ENH_NC_Measurement_Report_t.u_PSI3_CHANGE_MARK : Nat := 1465
/-- Member of `ENH_NC_Measurement_Report_t` (gsm_rlcmac.h) -/
abbrev ENH_NC_Measurement_Report_t.UnionType : Nat := 1466
/-- Member of `ENH_NC_Measurement_Report_t` (gsm_rlcmac.h) -/
abbrev ENH_NC_Measurement_Report_t.PMO_USED : Nat := 1467
/-- Member of `ENH_NC_Measurement_Report_t` (gsm_rlcmac.h) -/
abbrev ENH_NC_Measurement_Report_t.BSIC_Seen : Nat := 1468
/-- Member of `ENH_NC_Measurement_Report_t` (gsm_rlcmac.h) -/
abbrev ENH_NC_Measurement_Report_t.SCALE : Nat := 1469
/-- Member of `ENH_NC_Measurement_Report_t` (gsm_rlcmac.h) -/
abbrev ENH_NC_Measurement_Report_t.Exist_Serving_Cell_Data : Nat := 1470
/-- Member of `ENH_NC_Measurement_Report_t` (gsm_rlcmac.h) -/
abbrev ENH_NC_Measurement_Report_t.Serving_Cell_Data : Nat := 1471
/-- Member of `ENH_NC_Measurement_Report_t` (gsm_rlcmac.h) -/
abbrev ENH_NC_Measurement_Report_t.RepeatedInvalid_BSIC_Info : Nat := 1472
/-- Member of `ENH_NC_Measurement_Report_t` (gsm_rlcmac.h) -/
abbrev ENH_NC_Measurement_Report_t.Count_RepeatedInvalid_BSIC_Info : Nat := 1473
/-- Member of `ENH_NC_Measurement_Report_t` (gsm_rlcmac.h) -/
abbrev ENH_NC_Measurement_Report_t.Exist_ReportBitmap : Nat := 1474
/-- Member of `ENH_NC_Measurement_Report_t` (gsm_rlcmac.h) -/
abbrev ENH_NC_Measurement_Report_t.REPORTING_QUANTITY_Instances : Nat := 1475
/-- Member of `ENH_NC_Measurement_Report_t` (gsm_rlcmac.h) -/
abbrev ENH_NC_Measurement_Report_t.Count_REPORTING_QUANTITY_Instances : Nat := 1476
/-- Member of `Bitmap_Report_Quantity_t` (gsm_rlcmac.h) -/
abbrev Bitmap_Report_Quantity_t.Exist_REPORTING_QUANTITY : Nat := 1477
/-- Member of `Bitmap_Report_Quantity_t` (gsm_rlcmac.h) -/
abbrev Bitmap_Report_Quantity_t.REPORTING_QUANTITY : Nat := 1478
/-- Member of `PEMR_AdditionsR9_t` (gsm_rlcmac.h) -/
abbrev PEMR_AdditionsR9_t.Exist_UTRAN_CSG_Target_Cell : Nat := 1479
/-- Member of `PEMR_AdditionsR9_t` (gsm_rlcmac.h) -/
abbrev PEMR_AdditionsR9_t.UTRAN_CSG_Target_Cell : Nat := 1480
/-- Member of `PEMR_AdditionsR9_t` (gsm_rlcmac.h) -/
abbrev PEMR_AdditionsR9_t.Exist_EUTRAN_CSG_Target_Cell : Nat := 1481
/-- Member of `PEMR_AdditionsR9_t` (gsm_rlcmac.h) -/
abbrev PEMR_AdditionsR9_t.EUTRAN_CSG_Target_Cell : Nat := 1482
/-- Member of `PEMR_AdditionsR8_t` (gsm_rlcmac.h) -/
abbrev PEMR_AdditionsR8_t.BITMAP_LENGTH : Nat := 1483
/-- Member of `PEMR_AdditionsR8_t` (gsm_rlcmac.h) -/
abbrev PEMR_AdditionsR8_t.Bitmap_Report_Quantity : Nat := 1484
/-- Member of `PEMR_AdditionsR8_t` (gsm_rlcmac.h) -/
abbrev PEMR_AdditionsR8_t.Exist_EUTRAN_Meas_Rpt : Nat := 1485
/-- Member of `PEMR_AdditionsR8_t` (gsm_rlcmac.h) -/
abbrev PEMR_AdditionsR8_t.EUTRAN_Meas_Rpt : Nat := 1486
/-- Member of `PEMR_AdditionsR8_t` (gsm_rlcmac.h) -/
abbrev PEMR_AdditionsR8_t.Exist_AdditionsR9 : Nat := 1487
/-- Member of `PEMR_AdditionsR8_t` (gsm_rlcmac.h) -/
abbrev PEMR_AdditionsR8_t.AdditionsR9 : Nat := 1488
/-- Member of `PEMR_AdditionsR5_t` (gsm_rlcmac.h) -/
abbrev PEMR_AdditionsR5_t.Exist_GRNTI_Ext : Nat := 1489
/-- Member of `PEMR_AdditionsR5_t` (gsm_rlcmac.h) -/
abbrev PEMR_AdditionsR5_t.GRNTI_Ext : Nat := 1490
/-- Member of `PEMR_AdditionsR5_t` (gsm_rlcmac.h) -/
abbrev PEMR_AdditionsR5_t.Exist_AdditionsR8 : Nat := 1491
/-- Member of `PEMR_AdditionsR5_t` (gsm_rlcmac.h) -/
abbrev PEMR_AdditionsR5_t.AdditionsR8 : Nat := 1492
/-- Member of `Packet_Enh_Measurement_Report_t` (gsm_rlcmac.h) -/
abbrev Packet_Enh_Measurement_Report_t.PayloadType : Nat := 1493
/-- Member of `Packet_Enh_Measurement_Report_t` (gsm_rlcmac.h) -/
abbrev Packet_Enh_Measurement_Report_t.spare : Nat := 1494
/-- Member of `Packet_Enh_Measurement_Report_t` (gsm_rlcmac.h) -/
abbrev Packet_Enh_Measurement_Report_t.R : Nat := 1495
/-- Member of `Packet_Enh_Measurement_Report_t` (gsm_rlcmac.h) -/
abbrev Packet_Enh_Measurement_Report_t.MESSAGE_TYPE : Nat := 1496
/-- Member of `Packet_Enh_Measurement_Report_t` (gsm_rlcmac.h) -/
abbrev Packet_Enh_Measurement_Report_t.TLLI : Nat := 1497
/-- Member of `Packet_Enh_Measurement_Report_t` (gsm_rlcmac.h) -/
abbrev Packet_Enh_Measurement_Report_t.Measurements : Nat := 1498
/-- Member of `Packet_Enh_Measurement_Report_t` (gsm_rlcmac.h) -/
abbrev Packet_Enh_Measurement_Report_t.Exist_AdditionsR5 : Nat := 1499
/-- Member of `Packet_Enh_Measurement_Report_t` (gsm_rlcmac.h) -/
abbrev Packet_Enh_Measurement_Report_t.AdditionsR5 : Nat := 1500
/-- Member of `AdditionalMsRadAccessCapID_t` (gsm_rlcmac.h) -/
abbrev AdditionalMsRadAccessCapID_t.u_Global_TFI : Nat := 1501
/-- Member of `AdditionalMsRadAccessCapID_t` (gsm_rlcmac.h) -/
abbrev AdditionalMsRadAccessCapID_t.u_TLLI : Nat := 1502
/-- Member of `AdditionalMsRadAccessCapID_t` (gsm_rlcmac.h) -/
abbrev AdditionalMsRadAccessCapID_t.UnionType : Nat := 1503
/-- Member of `Additional_MS_Rad_Access_Cap_t` (gsm_rlcmac.h) -/
abbrev Additional_MS_Rad_Access_Cap_t.PayloadType : Nat := 1504
/-- Member of `Additional_MS_Rad_Access_Cap_t` (gsm_rlcmac.h) -/
abbrev Additional_MS_Rad_Access_Cap_t.spare : Nat := 1505
/-- Member of `Additional_MS_Rad_Access_Cap_t` (gsm_rlcmac.h) -/
abbrev Additional_MS_Rad_Access_Cap_t.R : Nat := 1506
/-- Member of `Additional_MS_Rad_Access_Cap_t` (gsm_rlcmac.h) -/
abbrev Additional_MS_Rad_Access_Cap_t.MESSAGE_TYPE : Nat := 1507
/-- Member of `Additional_MS_Rad_Access_Cap_t` (gsm_rlcmac.h) -/
abbrev Additional_MS_Rad_Access_Cap_t.ID : Nat := 1508
/-- Member of `Additional_MS_Rad_Access_Cap_t` (gsm_rlcmac.h) -/
abbrev Additional_MS_Rad_Access_Cap_t.MS_Radio_Access_capability2 : Nat := 1509
/-- Member of `Target_Cell_GSM_Notif_t` (gsm_rlcmac.h) -/
abbrev Target_Cell_GSM_Notif_t.ARFCN : Nat := 1510
/-- Member of `Target_Cell_GSM_Notif_t` (gsm_rlcmac.h) -/
abbrev Target_Cell_GSM_Notif_t.BSIC : Nat := 1511
/-- Member of `FDD_Target_Cell_Notif_t` (gsm_rlcmac.h) -/
abbrev FDD_Target_Cell_Notif_t.FDD_ARFCN : Nat := 1512
/-- Member of `FDD_Target_Cell_Notif_t` (gsm_rlcmac.h) -/
abbrev FDD_Target_Cell_Notif_t.Exist_Bandwith_FDD : Nat := 1513
/-- Member of `FDD_Target_Cell_Notif_t` (gsm_rlcmac.h) -/
abbrev FDD_Target_Cell_Notif_t.BANDWITH_FDD : Nat := 1514
/-- Member of `FDD_Target_Cell_Notif_t` (gsm_rlcmac.h) -/
abbrev FDD_Target_Cell_Notif_t.SCRAMBLING_CODE : Nat := 1515
/-- Member of `TDD_Target_Cell_Notif_t` (gsm_rlcmac.h) -/
abbrev TDD_Target_Cell_Notif_t.TDD_ARFCN : Nat := 1516
/-- Member of `TDD_Target_Cell_Notif_t` (gsm_rlcmac.h) -/
abbrev TDD_Target_Cell_Notif_t.Exist_Bandwith_TDD : Nat := 1517
/-- Member of `TDD_Target_Cell_Notif_t` (gsm_rlcmac.h) -/
abbrev TDD_Target_Cell_Notif_t.BANDWITH_TDD : Nat := 1518
/-- Member of `TDD_Target_Cell_Notif_t` (gsm_rlcmac.h) -/
abbrev TDD_Target_Cell_Notif_t.CELL_PARAMETER : Nat := 1519
/-- Member of `TDD_Target_Cell_Notif_t` (gsm_rlcmac.h) -/
abbrev TDD_Target_Cell_Notif_t.Sync_Case_TSTD : Nat := 1520
/-- Member of `Target_Cell_3G_Notif_t` (gsm_rlcmac.h) -/
abbrev Target_Cell_3G_Notif_t.Exist_FDD_Description : Nat := 1521
/-- Member of `Target_Cell_3G_Notif_t` (gsm_rlcmac.h) -/
abbrev Target_Cell_3G_Notif_t.FDD_Target_Cell_Notif : Nat := 1522
/-- Member of `Target_Cell_3G_Notif_t` (gsm_rlcmac.h) -/
abbrev Target_Cell_3G_Notif_t.Exist_TDD_Description : Nat := 1523
/-- Member of `Target_Cell_3G_Notif_t` (gsm_rlcmac.h) -/
abbrev Target_Cell_3G_Notif_t.TDD_Target_Cell : Nat := 1524
/-- Member of `Target_Cell_3G_Notif_t` (gsm_rlcmac.h) -/
abbrev Target_Cell_3G_Notif_t.REPORTING_QUANTITY : Nat := 1525
/-- Member of `Target_EUTRAN_Cell_Notif_t` (gsm_rlcmac.h) -/
abbrev Target_EUTRAN_Cell_Notif_t.EARFCN : Nat := 1526
/-- Member of `Target_EUTRAN_Cell_Notif_t` (gsm_rlcmac.h) -/
abbrev Target_EUTRAN_Cell_Notif_t.Exist_Measurement_Bandwidth : Nat := 1527
/-- Member of `Target_EUTRAN_Cell_Notif_t` (gsm_rlcmac.h) -/
abbrev Target_EUTRAN_Cell_Notif_t.Measurement_Bandwidth : Nat := 1528
/-- Member of `Target_EUTRAN_Cell_Notif_t` (gsm_rlcmac.h) -/
abbrev Target_EUTRAN_Cell_Notif_t.Physical_Layer_Cell_Identity : Nat := 1529
/-- Member of `Target_EUTRAN_Cell_Notif_t` (gsm_rlcmac.h) -/
abbrev Target_EUTRAN_Cell_Notif_t.Reporting_Quantity : Nat := 1530
/-- Member of `Eutran_Ccn_Measurement_Report_Cell_t` (gsm_rlcmac.h) -/
abbrev Eutran_Ccn_Measurement_Report_Cell_t.EUTRAN_FREQUENCY_INDEX : Nat := 1531
/-- Member of `Eutran_Ccn_Measurement_Report_Cell_t` (gsm_rlcmac.h) -/
abbrev Eutran_Ccn_Measurement_Report_Cell_t.CELL_IDENTITY : Nat := 1532
/-- Member of `Eutran_Ccn_Measurement_Report_Cell_t` (gsm_rlcmac.h) -/
abbrev Eutran_Ccn_Measurement_Report_Cell_t.REPORTING_QUANTITY : Nat := 1533
/-- Member of `Eutran_Ccn_Measurement_Report_t` (gsm_rlcmac.h) -/
abbrev Eutran_Ccn_Measurement_Report_t.ThreeG_BA_USED : Nat := 1534
/-- Member of `Eutran_Ccn_Measurement_Report_t` (gsm_rlcmac.h) -/
abbrev Eutran_Ccn_Measurement_Report_t.N_EUTRAN : Nat := 1535
/-- Member of `Eutran_Ccn_Measurement_Report_t` (gsm_rlcmac.h) -/
abbrev Eutran_Ccn_Measurement_Report_t.Eutran_Ccn_Measurement_Report_Cell : Nat := 1536
/-- Member of `Target_Cell_4G_Notif_t` (gsm_rlcmac.h) -/
abbrev Target_Cell_4G_Notif_t.Exist_Arfcn : Nat := 1537
/-- Member of `Target_Cell_4G_Notif_t` (gsm_rlcmac.h) -/
abbrev Target_Cell_4G_Notif_t.Arfcn : Nat := 1538
/-- Member of `Target_Cell_4G_Notif_t` (gsm_rlcmac.h) -/
abbrev Target_Cell_4G_Notif_t.bsic : Nat := 1539
/-- Member of `Target_Cell_4G_Notif_t` (gsm_rlcmac.h) -/
abbrev Target_Cell_4G_Notif_t.Exist_3G_Target_Cell : Nat := 1540
/-- Member of `Target_Cell_4G_Notif_t` (gsm_rlcmac.h) -/
abbrev Target_Cell_4G_Notif_t.Target_Cell_3G_Notif : Nat := 1541
/-- Member of `Target_Cell_4G_Notif_t` (gsm_rlcmac.h) -/
abbrev Target_Cell_4G_Notif_t.Exist_Eutran_Target_Cell : Nat := 1542
/-- Member of `Target_Cell_4G_Notif_t` (gsm_rlcmac.h) -/
abbrev Target_Cell_4G_Notif_t.Target_EUTRAN_Cell : Nat := 1543
/-- Member of `Target_Cell_4G_Notif_t` (gsm_rlcmac.h) -/
abbrev Target_Cell_4G_Notif_t.Exist_Eutran_Ccn_Measurement_Report : Nat := 1544
/-- Member of `Target_Cell_4G_Notif_t` (gsm_rlcmac.h) -/
abbrev Target_Cell_4G_Notif_t.Eutran_Ccn_Measurement_Report : Nat := 1545
/-- Member of `Target_Cell_CSG_Notif_t` (gsm_rlcmac.h) -/
abbrev Target_Cell_CSG_Notif_t.u_UTRAN_CSG_Measurement_Report : Nat := 1546
/-- Member of `Target_Cell_CSG_Notif_t` (gsm_rlcmac.h) -/
abbrev Target_Cell_CSG_Notif_t.u_EUTRAN_CSG_Measurement_Report : Nat := 1547
/-- Member of `Target_Cell_CSG_Notif_t` (gsm_rlcmac.h) -/
abbrev Target_Cell_CSG_Notif_t.UnionType : Nat := 1548
/-- Member of `Target_Cell_CSG_Notif_t` (gsm_rlcmac.h) -/
abbrev Target_Cell_CSG_Notif_t.Exist_Eutran_Ccn_Measurement_Report : Nat := 1549
/-- Member of `Target_Cell_CSG_Notif_t` (gsm_rlcmac.h) -/
abbrev Target_Cell_CSG_Notif_t.Eutran_Ccn_Measurement_Report : Nat := 1550
/-- Member of `Target_Other_RAT_2_Notif_t` (gsm_rlcmac.h) -/
abbrev Target_Other_RAT_2_Notif_t.u_Target_Cell_4G_Notif : Nat := 1551
/-- Member of `Target_Other_RAT_2_Notif_t` (gsm_rlcmac.h) -/
abbrev Target_Other_RAT_2_Notif_t.u_Target_Cell_CSG_Notif : Nat := 1552
/-- Member of `Target_Other_RAT_2_Notif_t` (gsm_rlcmac.h) -/
abbrev Target_Other_RAT_2_Notif_t.UnionType : Nat := 1553
/-- Member of `Target_Other_RAT_Notif_t` (gsm_rlcmac.h) -/
abbrev Target_Other_RAT_Notif_t.u_Target_Cell_3G_Notif : Nat := 1554
/-- Member of `Target_Other_RAT_Notif_t` (gsm_rlcmac.h) -/
abbrev Target_Other_RAT_Notif_t.u_Target_Other_RAT_2_Notif : Nat := 1555
/-- Member of `Target_Other_RAT_Notif_t` (gsm_rlcmac.h) -/
abbrev Target_Other_RAT_Notif_t.UnionType : Nat := 1556
/-- Member of `Target_Cell_t` (gsm_rlcmac.h) -/
abbrev Target_Cell_t.u_Target_Cell_GSM_Notif : Nat := 1557
/-- Member of `Target_Cell_t` (gsm_rlcmac.h) -/
abbrev Target_Cell_t.u_Target_Other_RAT_Notif : Nat := 1558
/-- Member of `Target_Cell_t` (gsm_rlcmac.h) -/
abbrev Target_Cell_t.UnionType : Nat := 1559
/-- Member of `CCN_Measurement_Report_t` (gsm_rlcmac.h) -/
abbrev CCN_Measurement_Report_t.RXLEV_SERVING_CELL : Nat := 1560
/-- Member of `CCN_Measurement_Report_t` (gsm_rlcmac.h) -/
abbrev CCN_Measurement_Report_t.NUMBER_OF_NC_MEASUREMENTS : Nat := 1561
/-- Member of `CCN_Measurement_Report_t` (gsm_rlcmac.h) -/
abbrev CCN_Measurement_Report_t.NC_Measurements : Nat := 1562
/-- Member of `PCCN_AdditionsR6_t` (gsm_rlcmac.h) -/
abbrev PCCN_AdditionsR6_t.Exist_BA_USED_3G : Nat := 1563
/-- Member of `PCCN_AdditionsR6_t` (gsm_rlcmac.h) -/
abbrev PCCN_AdditionsR6_t.BA_USED_3G : Nat := 1564
/-- Member of `PCCN_AdditionsR6_t` (gsm_rlcmac.h) -/
abbrev PCCN_AdditionsR6_t.N_3G : Nat := 1565
/-- Member of `PCCN_AdditionsR6_t` (gsm_rlcmac.h) -/
abbrev PCCN_AdditionsR6_t.Measurements_3G : Nat := 1566
/-- Member of `Packet_Cell_Change_Notification_t` (gsm_rlcmac.h) -/
abbrev Packet_Cell_Change_Notification_t.PayloadType : Nat := 1567
/-- Member of `Packet_Cell_Change_Notification_t` (gsm_rlcmac.h) -/
abbrev Packet_Cell_Change_Notification_t.spare : Nat := 1568
/-- Member of `Packet_Cell_Change_Notification_t` (gsm_rlcmac.h) -/
abbrev Packet_Cell_Change_Notification_t.R : Nat := 1569
/-- Member of `Packet_Cell_Change_Notification_t` (gsm_rlcmac.h) -/
abbrev Packet_Cell_Change_Notification_t.MESSAGE_TYPE : Nat := 1570
/-- Member of `Packet_Cell_Change_Notification_t` (gsm_rlcmac.h) -/
abbrev Packet_Cell_Change_Notification_t.Global_TFI : Nat := 1571
/-- Member of `Packet_Cell_Change_Notification_t` (gsm_rlcmac.h) -/
abbrev Packet_Cell_Change_Notification_t.Target_Cell : Nat := 1572
/-- Member of `Packet_Cell_Change_Notification_t` (gsm_rlcmac.h) -/
abbrev Packet_Cell_Change_Notification_t.u_BA_IND : Nat := 1573
/-- Member of `Packet_Cell_Change_Notification_t` (gsm_rlcmac.h) -/
abbrev Packet_Cell_Change_Notification_t.u_PSI3_CHANGE_MARK : Nat := 1574
/-- Member of `Packet_Cell_Change_Notification_t` (gsm_rlcmac.h) -/
abbrev Packet_Cell_Change_Notification_t.UnionType : Nat := 1575
/-- Member of `Packet_Cell_Change_Notification_t` (gsm_rlcmac.h) -/
abbrev Packet_Cell_Change_Notification_t.PMO_USED : Nat := 1576
/-- Member of `Packet_Cell_Change_Notification_t` (gsm_rlcmac.h) -/
abbrev Packet_Cell_Change_Notification_t.PCCN_SENDING : Nat := 1577
/-- Member of `Packet_Cell_Change_Notification_t` (gsm_rlcmac.h) -/
abbrev Packet_Cell_Change_Notification_t.CCN_Measurement_Report : Nat := 1578
/-- Member of `Packet_Cell_Change_Notification_t` (gsm_rlcmac.h) -/
abbrev Packet_Cell_Change_Notification_t.Exist_AdditionsR6 : Nat := 1579
/-- Member of `Packet_Cell_Change_Notification_t` (gsm_rlcmac.h) -/
abbrev Packet_Cell_Change_Notification_t.AdditionsR6 : Nat := 1580
/-- Member of `SI_Message_t` (gsm_rlcmac.h) -/
abbrev SI_Message_t.SI_MESSAGE_TYPE : Nat := 1581
/-- Member of `SI_Message_t` (gsm_rlcmac.h) -/
abbrev SI_Message_t.MESS_REC : Nat := 1582
/-- Member of `SI_Message_List_t` (gsm_rlcmac.h) -/
abbrev SI_Message_List_t.SI_Message : Nat := 1583
/-- Member of `SI_Message_List_t` (gsm_rlcmac.h) -/
abbrev SI_Message_List_t.Count_SI_Message : Nat := 1584
/-- Member of `SI_Message_List_t` (gsm_rlcmac.h) -/
abbrev SI_Message_List_t.ADDITIONAL_MSG_TYPE : Nat := 1585
/-- Member of `Unknown_SI_Message_List_t` (gsm_rlcmac.h) -/
abbrev Unknown_SI_Message_List_t.ADDITIONAL_MSG_TYPE : Nat := 1586
/-- Member of `Packet_SI_Status_t` (gsm_rlcmac.h) -/
abbrev Packet_SI_Status_t.PayloadType : Nat := 1587
/-- Member of `Packet_SI_Status_t` (gsm_rlcmac.h) -/
abbrev Packet_SI_Status_t.spare : Nat := 1588
/-- Member of `Packet_SI_Status_t` (gsm_rlcmac.h) -/
abbrev Packet_SI_Status_t.R : Nat := 1589
/-- Member of `Packet_SI_Status_t` (gsm_rlcmac.h) -/
abbrev Packet_SI_Status_t.MESSAGE_TYPE : Nat := 1590
/-- Member of `Packet_SI_Status_t` (gsm_rlcmac.h) -/
abbrev Packet_SI_Status_t.Global_TFI : Nat := 1591
/-- Member of `Packet_SI_Status_t` (gsm_rlcmac.h) -/
abbrev Packet_SI_Status_t.BCCH_CHANGE_MARK : Nat := 1592
/-- Member of `Packet_SI_Status_t` (gsm_rlcmac.h) -/
abbrev Packet_SI_Status_t.SI_Message_List : Nat := 1593
/-- Member of `Packet_SI_Status_t` (gsm_rlcmac.h) -/
abbrev Packet_SI_Status_t.Unknown_SI_Message_List : Nat := 1594

/-- FDD_Target_Cell_t, gsm_rlcmac.c:1570-1576 -/
def FDD_Target_Cell_t : Items :=
  .cons (.uint 14 FDD_Target_Cell_t.FDD_ARFCN false) <|
  .cons (.uint 1 FDD_Target_Cell_t.DIVERSITY false) <|
  .opt FDD_Target_Cell_t.Exist_Bandwith_FDD false false 1 <|
  .cons (.uint 3 FDD_Target_Cell_t.BANDWITH_FDD false) <|
  .cons (.uint 9 FDD_Target_Cell_t.SCRAMBLING_CODE false) <|
  .nil

/-- TDD_Target_Cell_t, gsm_rlcmac.c:1579-1586 -/
def TDD_Target_Cell_t : Items :=
  .cons (.uint 14 TDD_Target_Cell_t.TDD_ARFCN false) <|
  .cons (.uint 1 TDD_Target_Cell_t.DIVERSITY_TDD false) <|
  .opt TDD_Target_Cell_t.Exist_Bandwith_TDD false false 1 <|
  .cons (.uint 3 TDD_Target_Cell_t.BANDWITH_TDD false) <|
  .cons (.uint 7 TDD_Target_Cell_t.CELL_PARAMETER false) <|
  .cons (.uint 1 TDD_Target_Cell_t.Sync_Case_TSTD false) <|
  .nil

/-- EUTRAN_Target_Cell_t, gsm_rlcmac.c:1589-1594 -/
def EUTRAN_Target_Cell_t : Items :=
  .cons (.uint 16 EUTRAN_Target_Cell_t.EARFCN false) <|
  .opt EUTRAN_Target_Cell_t.Exist_Measurement_Bandwidth false false 1 <|
  .cons (.uint 3 EUTRAN_Target_Cell_t.Measurement_Bandwidth false) <|
  .cons (.uint 9 EUTRAN_Target_Cell_t.Physical_Layer_Cell_Identity false) <|
  .nil

/-- PLMN_t, gsm_rlcmac.c:48-55 -/
def PLMN_t : Items :=
  .cons (.uint 4 PLMN_t.MCC2 false) <|
  .cons (.uint 4 PLMN_t.MCC1 false) <|
  .cons (.uint 4 PLMN_t.MNC3 false) <|
  .cons (.uint 4 PLMN_t.MCC3 false) <|
  .cons (.uint 4 PLMN_t.MNC2 false) <|
  .cons (.uint 4 PLMN_t.MNC1 false) <|
  .nil

/-- UTRAN_CSG_Target_Cell_t, gsm_rlcmac.c:1597-1601 -/
def UTRAN_CSG_Target_Cell_t : Items :=
  .cons (.uint 28 UTRAN_CSG_Target_Cell_t.UTRAN_CI false) <|
  .opt UTRAN_CSG_Target_Cell_t.Exist_PLMN_ID false false 1 <|
  .cons (.type PLMN_t UTRAN_CSG_Target_Cell_t.PLMN_ID false) <|
  .nil

/-- EUTRAN_CSG_Target_Cell_t, gsm_rlcmac.c:1604-1609 -/
def EUTRAN_CSG_Target_Cell_t : Items :=
  .cons (.uint 28 EUTRAN_CSG_Target_Cell_t.EUTRAN_CI false) <|
  .cons (.uint 16 EUTRAN_CSG_Target_Cell_t.Tracking_Area_Code false) <|
  .opt EUTRAN_CSG_Target_Cell_t.Exist_PLMN_ID false false 1 <|
  .cons (.type PLMN_t EUTRAN_CSG_Target_Cell_t.PLMN_ID false) <|
  .nil

/-- PCCF_AdditionsR9_t, gsm_rlcmac.c:1612-1617 -/
def PCCF_AdditionsR9_t : Items :=
  .opt PCCF_AdditionsR9_t.Exist_UTRAN_CSG_Target_Cell false false 1 <|
  .cons (.type UTRAN_CSG_Target_Cell_t PCCF_AdditionsR9_t.UTRAN_CSG_Target_Cell false) <|
  .opt PCCF_AdditionsR9_t.Exist_EUTRAN_CSG_Target_Cell false false 1 <|
  .cons (.type EUTRAN_CSG_Target_Cell_t PCCF_AdditionsR9_t.EUTRAN_CSG_Target_Cell false) <|
  .nil

/-- PCCF_AdditionsR8_t, gsm_rlcmac.c:1620-1625 -/
def PCCF_AdditionsR8_t : Items :=
  .opt PCCF_AdditionsR8_t.Exist_EUTRAN_Target_Cell false false 1 <|
  .cons (.type EUTRAN_Target_Cell_t PCCF_AdditionsR8_t.EUTRAN_Target_Cell false) <|
  .opt PCCF_AdditionsR8_t.Exist_AdditionsR9 true false 1 <|
  .cons (.type PCCF_AdditionsR9_t PCCF_AdditionsR8_t.AdditionsR9 false) <|
  .nil

/-- PCCF_AdditionsR5_t, gsm_rlcmac.c:1628-1633 -/
def PCCF_AdditionsR5_t : Items :=
  .opt PCCF_AdditionsR5_t.Exist_G_RNTI_extension false false 1 <|
  .cons (.uint 4 PCCF_AdditionsR5_t.G_RNTI_extension false) <|
  .opt PCCF_AdditionsR5_t.Exist_AdditionsR8 true false 1 <|
  .cons (.type PCCF_AdditionsR8_t PCCF_AdditionsR5_t.AdditionsR8 false) <|
  .nil

/-- PCCF_AdditionsR99_t, gsm_rlcmac.c:1636-1643 -/
def PCCF_AdditionsR99_t : Items :=
  .opt PCCF_AdditionsR99_t.Exist_FDD_Description false false 1 <|
  .cons (.type FDD_Target_Cell_t PCCF_AdditionsR99_t.FDD_Target_Cell false) <|
  .opt PCCF_AdditionsR99_t.Exist_TDD_Description false false 1 <|
  .cons (.type TDD_Target_Cell_t PCCF_AdditionsR99_t.TDD_Target_Cell false) <|
  .opt PCCF_AdditionsR99_t.Exist_AdditionsR5 true false 1 <|
  .cons (.type PCCF_AdditionsR5_t PCCF_AdditionsR99_t.AdditionsR5 false) <|
  .nil

/-- Packet_Cell_Change_Failure_t, gsm_rlcmac.c:1647-1664 -/
def Packet_Cell_Change_Failure_t : Items :=
  .cons (.uint 2 Packet_Cell_Change_Failure_t.PayloadType false) <|
  .cons (.uint 5 Packet_Cell_Change_Failure_t.spare false) <|
  .cons (.uint 1 Packet_Cell_Change_Failure_t.R false) <|
  .cons (.uint 6 Packet_Cell_Change_Failure_t.MESSAGE_TYPE false) <|
  .cons (.uint 32 Packet_Cell_Change_Failure_t.TLLI false) <|
  .cons (.uint 10 Packet_Cell_Change_Failure_t.ARFCN false) <|
  .cons (.uint 6 Packet_Cell_Change_Failure_t.BSIC false) <|
  .cons (.uint 4 Packet_Cell_Change_Failure_t.CAUSE false) <|
  .opt Packet_Cell_Change_Failure_t.Exist_AdditionsR99 true false 1 <|
  .cons (.type PCCF_AdditionsR99_t Packet_Cell_Change_Failure_t.AdditionsR99 false) <|
  .cons (.padding) <|
  .nil

/-- Packet_Control_Acknowledgement_AdditionsR6_t, gsm_rlcmac.c:742-745 -/
def Packet_Control_Acknowledgement_AdditionsR6_t : Items :=
  .opt Packet_Control_Acknowledgement_AdditionsR6_t.Exist_CTRL_ACK_Extension false false 1 <|
  .cons (.uint 9 Packet_Control_Acknowledgement_AdditionsR6_t.CTRL_ACK_Extension false) <|
  .nil

/-- Packet_Control_Acknowledgement_AdditionsR5_t, gsm_rlcmac.c:748-756 -/
def Packet_Control_Acknowledgement_AdditionsR5_t : Items :=
  .opt Packet_Control_Acknowledgement_AdditionsR5_t.Exist_TN_RRBP false false 1 <|
  .cons (.uint 3 Packet_Control_Acknowledgement_AdditionsR5_t.TN_RRBP false) <|
  .opt Packet_Control_Acknowledgement_AdditionsR5_t.Exist_G_RNTI_Extension false false 1 <|
  .cons (.uint 4 Packet_Control_Acknowledgement_AdditionsR5_t.G_RNTI_Extension false) <|
  .opt Packet_Control_Acknowledgement_AdditionsR5_t.Exist_AdditionsR6 true false 1 <|
  .cons (.type Packet_Control_Acknowledgement_AdditionsR6_t Packet_Control_Acknowledgement_AdditionsR5_t.AdditionsR6 false) <|
  .nil

/-- Packet_Control_Acknowledgement_t, gsm_rlcmac.c:759-770 -/
def Packet_Control_Acknowledgement_t : Items :=
  .cons (.uint 2 Packet_Control_Acknowledgement_t.PayloadType false) <|
  .cons (.uint 5 Packet_Control_Acknowledgement_t.spare false) <|
  .cons (.bit Packet_Control_Acknowledgement_t.R) <|
  .cons (.uint 6 Packet_Control_Acknowledgement_t.MESSAGE_TYPE false) <|
  .cons (.uint 32 Packet_Control_Acknowledgement_t.TLLI false) <|
  .cons (.uint 2 Packet_Control_Acknowledgement_t.CTRL_ACK false) <|
  .opt Packet_Control_Acknowledgement_t.Exist_AdditionsR5 true false 1 <|
  .cons (.type Packet_Control_Acknowledgement_AdditionsR5_t Packet_Control_Acknowledgement_t.AdditionsR5 false) <|
  .cons (.padding) <|
  .nil

/-- Ack_Nack_Description_t, gsm_rlcmac.c:82-86 -/
def Ack_Nack_Description_t : Items :=
  .cons (.uint 1 Ack_Nack_Description_t.FINAL_ACK_INDICATION false) <|
  .cons (.uint 7 Ack_Nack_Description_t.STARTING_SEQUENCE_NUMBER false) <|
  .cons (.bitmap 64 Ack_Nack_Description_t.RECEIVED_BLOCK_BITMAP 8) <|
  .nil

/-- Channel_Request_Description_t, gsm_rlcmac.c:1151-1157 -/
def Channel_Request_Description_t : Items :=
  .cons (.uint 4 Channel_Request_Description_t.PEAK_THROUGHPUT_CLASS false) <|
  .cons (.uint 2 Channel_Request_Description_t.RADIO_PRIORITY false) <|
  .cons (.uint 1 Channel_Request_Description_t.RLC_MODE false) <|
  .cons (.uint 1 Channel_Request_Description_t.LLC_PDU_TYPE false) <|
  .cons (.uint 16 Channel_Request_Description_t.RLC_OCTET_COUNT false) <|
  .nil

/-- Channel_Quality_Report_t, gsm_rlcmac.c:138-166 -/
def Channel_Quality_Report_t : Items :=
  .cons (.uint 6 Channel_Quality_Report_t.C_VALUE false) <|
  .cons (.uint 3 Channel_Quality_Report_t.RXQUAL false) <|
  .cons (.uint 6 Channel_Quality_Report_t.SIGN_VAR false) <|
  .opt (Channel_Quality_Report_t.Slot_Exist 0) false false 1 <|
  .cons (.uint 4 (Channel_Quality_Report_t.Slot_I_LEVEL_TN 0) false) <|
  .opt (Channel_Quality_Report_t.Slot_Exist 1) false false 1 <|
  .cons (.uint 4 (Channel_Quality_Report_t.Slot_I_LEVEL_TN 1) false) <|
  .opt (Channel_Quality_Report_t.Slot_Exist 2) false false 1 <|
  .cons (.uint 4 (Channel_Quality_Report_t.Slot_I_LEVEL_TN 2) false) <|
  .opt (Channel_Quality_Report_t.Slot_Exist 3) false false 1 <|
  .cons (.uint 4 (Channel_Quality_Report_t.Slot_I_LEVEL_TN 3) false) <|
  .opt (Channel_Quality_Report_t.Slot_Exist 4) false false 1 <|
  .cons (.uint 4 (Channel_Quality_Report_t.Slot_I_LEVEL_TN 4) false) <|
  .opt (Channel_Quality_Report_t.Slot_Exist 5) false false 1 <|
  .cons (.uint 4 (Channel_Quality_Report_t.Slot_I_LEVEL_TN 5) false) <|
  .opt (Channel_Quality_Report_t.Slot_Exist 6) false false 1 <|
  .cons (.uint 4 (Channel_Quality_Report_t.Slot_I_LEVEL_TN 6) false) <|
  .opt (Channel_Quality_Report_t.Slot_Exist 7) false false 1 <|
  .cons (.uint 4 (Channel_Quality_Report_t.Slot_I_LEVEL_TN 7) false) <|
  .nil

/-- PD_AckNack_AdditionsR99_t, gsm_rlcmac.c:1507-1510 -/
def PD_AckNack_AdditionsR99_t : Items :=
  .opt PD_AckNack_AdditionsR99_t.Exist_PFI false false 1 <|
  .cons (.uint 7 PD_AckNack_AdditionsR99_t.PFI false) <|
  .nil

/-- Packet_Downlink_Ack_Nack_t, gsm_rlcmac.c:1513-1529 -/
def Packet_Downlink_Ack_Nack_t : Items :=
  .cons (.uint 2 Packet_Downlink_Ack_Nack_t.PayloadType false) <|
  .cons (.uint 5 Packet_Downlink_Ack_Nack_t.spare false) <|
  .cons (.bit Packet_Downlink_Ack_Nack_t.R) <|
  .cons (.uint 6 Packet_Downlink_Ack_Nack_t.MESSAGE_TYPE false) <|
  .cons (.uint 5 Packet_Downlink_Ack_Nack_t.DOWNLINK_TFI false) <|
  .cons (.type Ack_Nack_Description_t Packet_Downlink_Ack_Nack_t.Ack_Nack_Description false) <|
  .opt Packet_Downlink_Ack_Nack_t.Exist_Channel_Request_Description false false 1 <|
  .cons (.type Channel_Request_Description_t Packet_Downlink_Ack_Nack_t.Channel_Request_Description false) <|
  .cons (.type Channel_Quality_Report_t Packet_Downlink_Ack_Nack_t.Channel_Quality_Report false) <|
  .opt Packet_Downlink_Ack_Nack_t.Exist_AdditionsR99 true false 1 <|
  .cons (.type PD_AckNack_AdditionsR99_t Packet_Downlink_Ack_Nack_t.AdditionsR99 false) <|
  .cons (.padding) <|
  .nil

/-- Packet_Uplink_Dummy_Control_Block_t, gsm_rlcmac.c:785-794 -/
def Packet_Uplink_Dummy_Control_Block_t : Items :=
  .cons (.uint 2 Packet_Uplink_Dummy_Control_Block_t.PayloadType false) <|
  .cons (.uint 5 Packet_Uplink_Dummy_Control_Block_t.spare false) <|
  .cons (.bit Packet_Uplink_Dummy_Control_Block_t.R) <|
  .cons (.uint 6 Packet_Uplink_Dummy_Control_Block_t.MESSAGE_TYPE false) <|
  .cons (.uint 32 Packet_Uplink_Dummy_Control_Block_t.TLLI false) <|
  .cons (.padding) <|
  .nil

/-- Serving_Cell_Data_t, gsm_rlcmac.c:3854-3857 -/
def Serving_Cell_Data_t : Items :=
  .cons (.uint 6 Serving_Cell_Data_t.RXLEV_SERVING_CELL false) <|
  .cons (.fixed 1 0) <|
  .nil

/-- NC_Measurements_t, gsm_rlcmac.c:3860-3866 -/
def NC_Measurements_t : Items :=
  .cons (.uint 6 NC_Measurements_t.FREQUENCY_N false) <|
  .opt NC_Measurements_t.Exist_BSIC_N false false 1 <|
  .cons (.uint 6 NC_Measurements_t.BSIC_N false) <|
  .cons (.uint 6 NC_Measurements_t.RXLEV_N false) <|
  .nil

/-- NC_Measurement_Report_t, gsm_rlcmac.c:3882-3887 -/
def NC_Measurement_Report_t : Items :=
  .cons (.uint 1 NC_Measurement_Report_t.NC_MODE false) <|
  .cons (.type Serving_Cell_Data_t NC_Measurement_Report_t.Serving_Cell_Data false) <|
  .cons (.uint 3 NC_Measurement_Report_t.NUMBER_OF_NC_MEASUREMENTS false) <|
  .cons (.varTArray NC_Measurements_t NC_Measurement_Report_t.NC_Measurements NC_Measurement_Report_t.NUMBER_OF_NC_MEASUREMENTS 6) <|
  .nil

/-- EXT_Measurement_Report_t, gsm_rlcmac.c:3907-3938 -/
def EXT_Measurement_Report_t : Items :=
  .cons (.uint 2 EXT_Measurement_Report_t.EXT_REPORTING_TYPE false) <|
  .opt EXT_Measurement_Report_t.Exist_I_LEVEL false false 1 <|
  .opt (EXT_Measurement_Report_t.Slot_Exist 0) false false 1 <|
  .cons (.uint 6 (EXT_Measurement_Report_t.Slot_I_LEVEL 0) false) <|
  .opt (EXT_Measurement_Report_t.Slot_Exist 1) false false 1 <|
  .cons (.uint 6 (EXT_Measurement_Report_t.Slot_I_LEVEL 1) false) <|
  .opt (EXT_Measurement_Report_t.Slot_Exist 2) false false 1 <|
  .cons (.uint 6 (EXT_Measurement_Report_t.Slot_I_LEVEL 2) false) <|
  .opt (EXT_Measurement_Report_t.Slot_Exist 3) false false 1 <|
  .cons (.uint 6 (EXT_Measurement_Report_t.Slot_I_LEVEL 3) false) <|
  .opt (EXT_Measurement_Report_t.Slot_Exist 4) false false 1 <|
  .cons (.uint 6 (EXT_Measurement_Report_t.Slot_I_LEVEL 4) false) <|
  .opt (EXT_Measurement_Report_t.Slot_Exist 5) false false 1 <|
  .cons (.uint 6 (EXT_Measurement_Report_t.Slot_I_LEVEL 5) false) <|
  .opt (EXT_Measurement_Report_t.Slot_Exist 6) false false 1 <|
  .cons (.uint 6 (EXT_Measurement_Report_t.Slot_I_LEVEL 6) false) <|
  .opt (EXT_Measurement_Report_t.Slot_Exist 7) false false 1 <|
  .cons (.uint 6 (EXT_Measurement_Report_t.Slot_I_LEVEL 7) false) <|
  .cons (.uint 5 EXT_Measurement_Report_t.NUMBER_OF_EXT_MEASUREMENTS false) <|
  .cons (.varTArray NC_Measurements_t EXT_Measurement_Report_t.EXT_Measurements EXT_Measurement_Report_t.NUMBER_OF_EXT_MEASUREMENTS 9) <|
  .nil

/-- BA_USED_t, gsm_rlcmac.c:3848-3851 -/
def BA_USED_t : Items :=
  .cons (.uint 1 BA_USED_t.BA_USED false) <|
  .cons (.uint 1 BA_USED_t.BA_USED_3G false) <|
  .nil

/-- Measurements_3G_t, gsm_rlcmac.c:3941-3944 -/
def Measurements_3G_t : Items :=
  .cons (.uint 7 Measurements_3G_t.CELL_LIST_INDEX_3G false) <|
  .cons (.uint 6 Measurements_3G_t.REPORTING_QUANTITY false) <|
  .nil

/-- EUTRAN_Measurement_Report_Body_t, gsm_rlcmac.c:3947-3951 -/
def EUTRAN_Measurement_Report_Body_t : Items :=
  .cons (.uint 3 EUTRAN_Measurement_Report_Body_t.EUTRAN_FREQUENCY_INDEX false) <|
  .cons (.uint 9 EUTRAN_Measurement_Report_Body_t.CELL_IDENTITY false) <|
  .cons (.uint 6 EUTRAN_Measurement_Report_Body_t.REPORTING_QUANTITY false) <|
  .nil

/-- EUTRAN_Measurement_Report_t, gsm_rlcmac.c:3954-3957 -/
def EUTRAN_Measurement_Report_t : Items :=
  .cons (.uintOffset 2 EUTRAN_Measurement_Report_t.N_EUTRAN 1) <|
  .cons (.varTArray EUTRAN_Measurement_Report_Body_t EUTRAN_Measurement_Report_t.Report EUTRAN_Measurement_Report_t.N_EUTRAN 4) <|
  .nil

/-- UTRAN_CSG_Measurement_Report_t, gsm_rlcmac.c:3960-3967 -/
def UTRAN_CSG_Measurement_Report_t : Items :=
  .cons (.uint 28 UTRAN_CSG_Measurement_Report_t.UTRAN_CGI false) <|
  .opt UTRAN_CSG_Measurement_Report_t.Exist_PLMN_ID false false 1 <|
  .cons (.type PLMN_t UTRAN_CSG_Measurement_Report_t.Plmn_ID false) <|
  .cons (.uint 27 UTRAN_CSG_Measurement_Report_t.CSG_ID false) <|
  .cons (.uint 1 UTRAN_CSG_Measurement_Report_t.Access_Mode false) <|
  .cons (.uint 6 UTRAN_CSG_Measurement_Report_t.REPORTING_QUANTITY false) <|
  .nil

/-- EUTRAN_CSG_Measurement_Report_t, gsm_rlcmac.c:3970-3978 -/
def EUTRAN_CSG_Measurement_Report_t : Items :=
  .cons (.uint 28 EUTRAN_CSG_Measurement_Report_t.EUTRAN_CGI false) <|
  .cons (.uint 16 EUTRAN_CSG_Measurement_Report_t.Tracking_Area_Code false) <|
  .opt EUTRAN_CSG_Measurement_Report_t.Exist_PLMN_ID false false 1 <|
  .cons (.type PLMN_t EUTRAN_CSG_Measurement_Report_t.Plmn_ID false) <|
  .cons (.uint 27 EUTRAN_CSG_Measurement_Report_t.CSG_ID false) <|
  .cons (.uint 1 EUTRAN_CSG_Measurement_Report_t.Access_Mode false) <|
  .cons (.uint 6 EUTRAN_CSG_Measurement_Report_t.REPORTING_QUANTITY false) <|
  .nil

/-- PMR_AdditionsR9_t, gsm_rlcmac.c:3981-3986 -/
def PMR_AdditionsR9_t : Items :=
  .opt PMR_AdditionsR9_t.Exist_UTRAN_CSG_Meas_Rpt false false 1 <|
  .cons (.type UTRAN_CSG_Measurement_Report_t PMR_AdditionsR9_t.UTRAN_CSG_Meas_Rpt false) <|
  .opt PMR_AdditionsR9_t.Exist_EUTRAN_CSG_Meas_Rpt false false 1 <|
  .cons (.type EUTRAN_CSG_Measurement_Report_t PMR_AdditionsR9_t.EUTRAN_CSG_Meas_Rpt false) <|
  .nil

/-- PMR_AdditionsR8_t, gsm_rlcmac.c:3989-3994 -/
def PMR_AdditionsR8_t : Items :=
  .opt PMR_AdditionsR8_t.Exist_EUTRAN_Meas_Rpt false false 1 <|
  .cons (.type EUTRAN_Measurement_Report_t PMR_AdditionsR8_t.EUTRAN_Meas_Rpt false) <|
  .opt PMR_AdditionsR8_t.Exist_AdditionsR9 true false 1 <|
  .cons (.type PMR_AdditionsR9_t PMR_AdditionsR8_t.AdditionsR9 false) <|
  .nil

/-- PMR_AdditionsR5_t, gsm_rlcmac.c:3997-4002 -/
def PMR_AdditionsR5_t : Items :=
  .opt PMR_AdditionsR5_t.Exist_GRNTI false false 3 <|
  .cons (.uint 4 PMR_AdditionsR5_t.GRNTI false) <|
  .opt PMR_AdditionsR5_t.Exist_AdditionsR8 true false 1 <|
  .cons (.type PMR_AdditionsR8_t PMR_AdditionsR5_t.AdditionsR8 false) <|
  .nil

/-- PMR_AdditionsR99_t, gsm_rlcmac.c:4005-4018 -/
def PMR_AdditionsR99_t : Items :=
  .opt PMR_AdditionsR99_t.Exist_Info3G false false 2 <|
  .cons (.union 1 PMR_AdditionsR99_t.UnionType (.cons (.type BA_USED_t PMR_AdditionsR99_t.u_BA_USED false) (.cons (.uint 2 PMR_AdditionsR99_t.u_PSI3_CHANGE_MARK false) .nil))) <|
  .cons (.uint 1 PMR_AdditionsR99_t.PMO_USED false) <|
  .opt PMR_AdditionsR99_t.Exist_MeasurementReport3G false false 2 <|
  .cons (.uintOffset 3 PMR_AdditionsR99_t.N_3G 1) <|
  .cons (.varTArray Measurements_3G_t PMR_AdditionsR99_t.Measurements_3G PMR_AdditionsR99_t.N_3G 6) <|
  .opt PMR_AdditionsR99_t.Exist_AdditionsR5 true false 1 <|
  .cons (.type PMR_AdditionsR5_t PMR_AdditionsR99_t.AdditionsR5 false) <|
  .nil

/-- Packet_Measurement_Report_t, gsm_rlcmac.c:4052-4073 -/
def Packet_Measurement_Report_t : Items :=
  .cons (.uint 2 Packet_Measurement_Report_t.PayloadType false) <|
  .cons (.uint 5 Packet_Measurement_Report_t.spare false) <|
  .cons (.uint 1 Packet_Measurement_Report_t.R false) <|
  .cons (.uint 6 Packet_Measurement_Report_t.MESSAGE_TYPE false) <|
  .cons (.uint 32 Packet_Measurement_Report_t.TLLI false) <|
  .opt Packet_Measurement_Report_t.Exist_PSI5_CHANGE_MARK false false 1 <|
  .cons (.uint 2 Packet_Measurement_Report_t.PSI5_CHANGE_MARK false) <|
  .cons (.union 1 Packet_Measurement_Report_t.UnionType (.cons (.type NC_Measurement_Report_t Packet_Measurement_Report_t.u_NC_Measurement_Report false) (.cons (.type EXT_Measurement_Report_t Packet_Measurement_Report_t.u_EXT_Measurement_Report false) .nil))) <|
  .opt Packet_Measurement_Report_t.Exist_AdditionsR99 true false 1 <|
  .cons (.type PMR_AdditionsR99_t Packet_Measurement_Report_t.AdditionsR99 false) <|
  .cons (.padding) <|
  .nil

/-- Global_TFI_t, gsm_rlcmac.c:66-70 -/
def Global_TFI_t : Items :=
  .cons (.union 1 Global_TFI_t.UnionType (.cons (.uint 5 Global_TFI_t.u_UPLINK_TFI false) (.cons (.uint 5 Global_TFI_t.u_DOWNLINK_TFI false) .nil))) <|
  .nil

/-- PacketResourceRequestID, gsm_rlcmac.c:1161-1165 -/
def PacketResourceRequestID : Alts :=
  .cons 1 0 (.type Global_TFI_t PacketResourceRequestID_t.u_Global_TFI false) <|
  .cons 1 1 (.uint 32 PacketResourceRequestID_t.u_TLLI false) <|
  .nil

/-- PacketResourceRequestID_t, gsm_rlcmac.c:1168-1170 -/
def PacketResourceRequestID_t : Items :=
  .cons (.choice PacketResourceRequestID_t.UnionType PacketResourceRequestID) <|
  .nil

/-- DTM_EGPRS_t, gsm_rlcmac.c:828-831 -/
def DTM_EGPRS_t : Items :=
  .opt DTM_EGPRS_t.Exist_DTM_EGPRS_multislot_class false false 1 <|
  .cons (.uint 2 DTM_EGPRS_t.DTM_EGPRS_multislot_class false) <|
  .nil

/-- Multislot_capability_t, gsm_rlcmac.c:846-869 -/
def Multislot_capability_t : Items :=
  .opt Multislot_capability_t.Exist_HSCSD_multislot_class true false 1 <|
  .cons (.uint 5 Multislot_capability_t.HSCSD_multislot_class false) <|
  .opt Multislot_capability_t.Exist_GPRS_multislot_class true false 2 <|
  .cons (.uint 5 Multislot_capability_t.GPRS_multislot_class false) <|
  .cons (.uint 1 Multislot_capability_t.GPRS_Extended_Dynamic_Allocation_Capability false) <|
  .opt Multislot_capability_t.Exist_SM true false 2 <|
  .cons (.uint 4 Multislot_capability_t.SMS_VALUE false) <|
  .cons (.uint 4 Multislot_capability_t.SM_VALUE false) <|
  .opt Multislot_capability_t.Exist_ECSD_multislot_class true false 1 <|
  .cons (.uint 5 Multislot_capability_t.ECSD_multislot_class false) <|
  .opt Multislot_capability_t.Exist_EGPRS_multislot_class true false 2 <|
  .cons (.uint 5 Multislot_capability_t.EGPRS_multislot_class false) <|
  .cons (.uint 1 Multislot_capability_t.EGPRS_Extended_Dynamic_Allocation_Capability false) <|
  .opt Multislot_capability_t.Exist_DTM_GPRS_multislot_class true false 3 <|
  .cons (.uint 2 Multislot_capability_t.DTM_GPRS_multislot_class false) <|
  .cons (.uint 1 Multislot_capability_t.Single_Slot_DTM false) <|
  .cons (.type DTM_EGPRS_t Multislot_capability_t.DTM_EGPRS_Params false) <|
  .nil

/-- DTM_EGPRS_HighMultislotClass_t, gsm_rlcmac.c:834-837 -/
def DTM_EGPRS_HighMultislotClass_t : Items :=
  .opt DTM_EGPRS_HighMultislotClass_t.Exist_DTM_EGPRS_HighMultislotClass false false 1 <|
  .cons (.uint 3 DTM_EGPRS_HighMultislotClass_t.DTM_EGPRS_HighMultislotClass false) <|
  .nil

/-- DownlinkDualCarrierCapability_r7_t, gsm_rlcmac.c:840-843 -/
def DownlinkDualCarrierCapability_r7_t : Items :=
  .cons (.uint 3 DownlinkDualCarrierCapability_r7_t.MultislotCapabilityReductionForDL_DualCarrier false) <|
  .cons (.uint 1 DownlinkDualCarrierCapability_r7_t.DL_DualCarrierForDTM false) <|
  .nil

/-- Content_t, gsm_rlcmac.c:872-942 -/
def Content_t : Items :=
  .cons (.uint 3 Content_t.RF_Power_Capability false) <|
  .opt Content_t.Exist_A5_bits true true 1 <|
  .cons (.uint 7 Content_t.A5_bits true) <|
  .cons (.uint 1 Content_t.ES_IND true) <|
  .cons (.uint 1 Content_t.PS true) <|
  .cons (.uint 1 Content_t.VGCS true) <|
  .cons (.uint 1 Content_t.VBS true) <|
  .opt Content_t.Exist_Multislot_capability true false 1 <|
  .cons (.type Multislot_capability_t Content_t.Multislot_capability false) <|
  .opt Content_t.Exist_Eight_PSK_Power_Capability true false 1 <|
  .cons (.uint 2 Content_t.Eight_PSK_Power_Capability false) <|
  .cons (.uint 1 Content_t.COMPACT_Interference_Measurement_Capability true) <|
  .cons (.uint 1 Content_t.Revision_Level_Indicator true) <|
  .cons (.uint 1 Content_t.UMTS_FDD_Radio_Access_Technology_Capability true) <|
  .cons (.uint 1 Content_t.UMTS_384_TDD_Radio_Access_Technology_Capability true) <|
  .cons (.uint 1 Content_t.CDMA2000_Radio_Access_Technology_Capability true) <|
  .cons (.uint 1 Content_t.UMTS_128_TDD_Radio_Access_Technology_Capability true) <|
  .cons (.uint 1 Content_t.GERAN_Feature_Package_1 true) <|
  .opt Content_t.Exist_Extended_DTM_multislot_class true false 2 <|
  .cons (.uint 2 Content_t.Extended_DTM_GPRS_multislot_class false) <|
  .cons (.uint 2 Content_t.Extended_DTM_EGPRS_multislot_class false) <|
  .cons (.uint 1 Content_t.Modulation_based_multislot_class_support true) <|
  .opt Content_t.Exist_HighMultislotCapability true false 1 <|
  .cons (.uint 2 Content_t.HighMultislotCapability false) <|
  .opt Content_t.Exist_GERAN_lu_ModeCapability true false 1 <|
  .cons (.uint 4 Content_t.GERAN_lu_ModeCapability false) <|
  .cons (.uint 2 Content_t.GMSK_MultislotPowerProfile true) <|
  .cons (.uint 2 Content_t.EightPSK_MultislotProfile true) <|
  .cons (.uint 1 Content_t.MultipleTBF_Capability true) <|
  .cons (.uint 2 Content_t.DownlinkAdvancedReceiverPerformance true) <|
  .cons (.uint 1 Content_t.ExtendedRLC_MAC_ControlMessageSegmentionsCapability true) <|
  .cons (.uint 1 Content_t.DTM_EnhancementsCapability true) <|
  .opt Content_t.Exist_DTM_GPRS_HighMultislotClass true false 2 <|
  .cons (.uint 3 Content_t.DTM_GPRS_HighMultislotClass false) <|
  .cons (.type DTM_EGPRS_HighMultislotClass_t Content_t.DTM_EGPRS_HighMultislotClass false) <|
  .cons (.uint 1 Content_t.PS_HandoverCapability true) <|
  .cons (.uint 1 Content_t.DTM_Handover_Capability true) <|
  .opt Content_t.Exist_DownlinkDualCarrierCapability_r7 true true 1 <|
  .cons (.type DownlinkDualCarrierCapability_r7_t Content_t.DownlinkDualCarrierCapability_r7 true) <|
  .cons (.uint 1 Content_t.FlexibleTimeslotAssignment true) <|
  .cons (.uint 1 Content_t.GAN_PS_HandoverCapability true) <|
  .cons (.uint 1 Content_t.RLC_Non_persistentMode true) <|
  .cons (.uint 1 Content_t.ReducedLatencyCapability true) <|
  .cons (.uint 2 Content_t.UplinkEGPRS2 true) <|
  .cons (.uint 2 Content_t.DownlinkEGPRS2 true) <|
  .cons (.uint 1 Content_t.EUTRA_FDD_Support true) <|
  .cons (.uint 1 Content_t.EUTRA_TDD_Support true) <|
  .cons (.uint 2 Content_t.GERAN_To_EUTRAN_supportInGERAN_PTM true) <|
  .cons (.uint 1 Content_t.PriorityBasedReselectionSupport true) <|
  .nil

/-- Additional_access_technologies_struct_t, gsm_rlcmac.c:957-961 -/
def Additional_access_technologies_struct_t : Items :=
  .cons (.uint 4 Additional_access_technologies_struct_t.Access_Technology_Type false) <|
  .cons (.uint 3 Additional_access_technologies_struct_t.GMSK_Power_class false) <|
  .cons (.uint 2 Additional_access_technologies_struct_t.Eight_PSK_Power_class false) <|
  .nil

/-- Additional_access_technologies_t, gsm_rlcmac.c:964-966 -/
def Additional_access_technologies_t : Items :=
  .cons (.recTArray Additional_access_technologies_struct_t Additional_access_technologies_t.Additional_access_technologies Additional_access_technologies_t.Count_additional_access_technologies 10) <|
  .nil

/-- MS_RA_capability_value_Choice, gsm_rlcmac.c:981-998 -/
def MS_RA_capability_value_Choice : Alts :=
  .cons 4 0 (.serialize 7 [MS_RA_capability_value_t.u_Content] Content_t) <|
  .cons 4 1 (.serialize 7 [MS_RA_capability_value_t.u_Content] Content_t) <|
  .cons 4 2 (.serialize 7 [MS_RA_capability_value_t.u_Content] Content_t) <|
  .cons 4 3 (.serialize 7 [MS_RA_capability_value_t.u_Content] Content_t) <|
  .cons 4 4 (.serialize 7 [MS_RA_capability_value_t.u_Content] Content_t) <|
  .cons 4 5 (.serialize 7 [MS_RA_capability_value_t.u_Content] Content_t) <|
  .cons 4 6 (.serialize 7 [MS_RA_capability_value_t.u_Content] Content_t) <|
  .cons 4 7 (.serialize 7 [MS_RA_capability_value_t.u_Content] Content_t) <|
  .cons 4 8 (.serialize 7 [MS_RA_capability_value_t.u_Content] Content_t) <|
  .cons 4 9 (.serialize 7 [MS_RA_capability_value_t.u_Content] Content_t) <|
  .cons 4 10 (.serialize 7 [MS_RA_capability_value_t.u_Content] Content_t) <|
  .cons 4 11 (.serialize 7 [MS_RA_capability_value_t.u_Content] Content_t) <|
  .cons 4 12 (.serialize 7 [MS_RA_capability_value_t.u_Content] Content_t) <|
  .cons 4 13 (.serialize 7 [MS_RA_capability_value_t.u_Content] Content_t) <|
  .cons 4 15 (.serialize 7 [MS_RA_capability_value_t.u_Additional_access_technologies] Additional_access_technologies_t) <|
  .nil

/-- MS_RA_capability_value_t, gsm_rlcmac.c:1001-1003 -/
def MS_RA_capability_value_t : Items :=
  .cons (.choice MS_RA_capability_value_t.IndexOfAccTech MS_RA_capability_value_Choice) <|
  .nil

/-- MS_Radio_Access_capability2_t, gsm_rlcmac.c:1013-1015 -/
def MS_Radio_Access_capability2_t : Items :=
  .cons (.recTArray1 MS_RA_capability_value_t MS_Radio_Access_capability_t.MS_RA_capability_value MS_Radio_Access_capability_t.Count_MS_RA_capability_value 11) <|
  .nil

/-- InterferenceMeasurementReport_t, gsm_rlcmac.c:1181-1184 -/
def InterferenceMeasurementReport_t : Items :=
  .opt InterferenceMeasurementReport_t.Exist false false 1 <|
  .cons (.uint 4 InterferenceMeasurementReport_t.I_LEVEL false) <|
  .nil

/-- EGPRS_BEP_LinkQualityMeasurements_t, gsm_rlcmac.c:1196-1204 -/
def EGPRS_BEP_LinkQualityMeasurements_t : Items :=
  .opt EGPRS_BEP_LinkQualityMeasurements_t.Exist_MEAN_CV_BEP_GMSK false false 2 <|
  .cons (.uint 5 EGPRS_BEP_LinkQualityMeasurements_t.MEAN_BEP_GMSK false) <|
  .cons (.uint 3 EGPRS_BEP_LinkQualityMeasurements_t.CV_BEP_GMSK false) <|
  .opt EGPRS_BEP_LinkQualityMeasurements_t.Exist_MEAN_CV_BEP_8PSK false false 2 <|
  .cons (.uint 5 EGPRS_BEP_LinkQualityMeasurements_t.MEAN_BEP_8PSK false) <|
  .cons (.uint 3 EGPRS_BEP_LinkQualityMeasurements_t.CV_BEP_8PSK false) <|
  .nil

/-- BEP_MeasurementReport_t, gsm_rlcmac.c:1173-1178 -/
def BEP_MeasurementReport_t : Items :=
  .opt BEP_MeasurementReport_t.Exist false false 1 <|
  .cons (.union 1 BEP_MeasurementReport_t.UnionType (.cons (.uint 4 BEP_MeasurementReport_t.u_MEAN_BEP_GMSK false) (.cons (.uint 4 BEP_MeasurementReport_t.u_MEAN_BEP_8PSK false) .nil))) <|
  .nil

/-- EGPRS_TimeslotLinkQualityMeasurements_t, gsm_rlcmac.c:1187-1193 -/
def EGPRS_TimeslotLinkQualityMeasurements_t : Items :=
  .opt EGPRS_TimeslotLinkQualityMeasurements_t.Exist_BEP_MEASUREMENTS false false 1 <|
  .cons (.typeArray BEP_MeasurementReport_t EGPRS_TimeslotLinkQualityMeasurements_t.BEP_MEASUREMENTS 8 8) <|
  .opt EGPRS_TimeslotLinkQualityMeasurements_t.Exist_INTERFERENCE_MEASUREMENTS false false 1 <|
  .cons (.typeArray InterferenceMeasurementReport_t EGPRS_TimeslotLinkQualityMeasurements_t.INTERFERENCE_MEASUREMENTS 8 8) <|
  .nil

/-- IU_Mode_Channel_Request_Desk_t, gsm_rlcmac.c:1207-1220 -/
def IU_Mode_Channel_Request_Desk_t : Items :=
  .cons (.uint 5 IU_Mode_Channel_Request_Desk_t.RB_ID false) <|
  .cons (.uint 2 IU_Mode_Channel_Request_Desk_t.RADIO_PRIORITY false) <|
  .opt IU_Mode_Channel_Request_Desk_t.Exist_RLC_BLOCK_COUNT false false 1 <|
  .cons (.uint 8 IU_Mode_Channel_Request_Desk_t.RLC_BLOCK_COUNT false) <|
  .cons (.uint 1 IU_Mode_Channel_Request_Desk_t.Exist_Iu_Mode_ChRequestDesk false) <|
  .nil

/-- IU_Mode_Channel_Request_Desk_RNTI_t, gsm_rlcmac.c:1223-1230 -/
def IU_Mode_Channel_Request_Desk_RNTI_t : Items :=
  .opt IU_Mode_Channel_Request_Desk_RNTI_t.Exist_G_RNTI_Extension false false 1 <|
  .cons (.uint 4 IU_Mode_Channel_Request_Desk_RNTI_t.G_RNTI_Extension false) <|
  .cons (.type IU_Mode_Channel_Request_Desk_t IU_Mode_Channel_Request_Desk_RNTI_t.IU_Mode_Channel_Request_Desk false) <|
  .nil

/-- Ext_Channel_Request_desc_t, gsm_rlcmac.c:1234-1248 -/
def Ext_Channel_Request_desc_t : Items :=
  .cons (.uint 7 Ext_Channel_Request_desc_t.PFI false) <|
  .cons (.uint 2 Ext_Channel_Request_desc_t.RADIO_PRIORITY false) <|
  .cons (.uint 1 Ext_Channel_Request_desc_t.RLC_Mode false) <|
  .opt Ext_Channel_Request_desc_t.Exist_LCC_PDU false false 1 <|
  .cons (.uint 1 Ext_Channel_Request_desc_t.LCC_PDU false) <|
  .cons (.uint 1 Ext_Channel_Request_desc_t.Exist_Ext_Channel_Request_desc false) <|
  .nil

/-- EGPRS_BEP_LinkQualityMeasurements_type2_t, gsm_rlcmac.c:1251-1281 -/
def EGPRS_BEP_LinkQualityMeasurements_type2_t : Items :=
  .opt EGPRS_BEP_LinkQualityMeasurements_type2_t.Exist_GMSK_MEAN_BEP false false 1 <|
  .cons (.uint 5 EGPRS_BEP_LinkQualityMeasurements_type2_t.GMSK_MEAN_BEP false) <|
  .cons (.uint 3 EGPRS_BEP_LinkQualityMeasurements_type2_t.GMSK_CV_BEP false) <|
  .opt EGPRS_BEP_LinkQualityMeasurements_type2_t.Exist_8PSK_MEAN_BEP false false 1 <|
  .cons (.uint 5 EGPRS_BEP_LinkQualityMeasurements_type2_t.p8PSK_MEAN_BEP false) <|
  .cons (.uint 3 EGPRS_BEP_LinkQualityMeasurements_type2_t.p8PSK_CV_BEP false) <|
  .opt EGPRS_BEP_LinkQualityMeasurements_type2_t.Exist_QPSK_MEAN_BEP false false 1 <|
  .cons (.uint 5 EGPRS_BEP_LinkQualityMeasurements_type2_t.QPSK_MEAN_BEP false) <|
  .cons (.uint 3 EGPRS_BEP_LinkQualityMeasurements_type2_t.QPSK_CV_BEP false) <|
  .opt EGPRS_BEP_LinkQualityMeasurements_type2_t.Exist_16QAM_NSR_MEAN_BEP false false 1 <|
  .cons (.uint 5 EGPRS_BEP_LinkQualityMeasurements_type2_t.p16QAM_NSR_MEAN_BEP false) <|
  .cons (.uint 3 EGPRS_BEP_LinkQualityMeasurements_type2_t.p16QAM_NSR_CV_BEP false) <|
  .opt EGPRS_BEP_LinkQualityMeasurements_type2_t.Exist_32QAM_NSR_MEAN_BEP false false 1 <|
  .cons (.uint 5 EGPRS_BEP_LinkQualityMeasurements_type2_t.p32QAM_NSR_MEAN_BEP false) <|
  .cons (.uint 3 EGPRS_BEP_LinkQualityMeasurements_type2_t.p32QAM_NSR_CV_BEP false) <|
  .opt EGPRS_BEP_LinkQualityMeasurements_type2_t.Exist_16QAM_HSR_MEAN_BEP false false 1 <|
  .cons (.uint 5 EGPRS_BEP_LinkQualityMeasurements_type2_t.p16QAM_HSR_MEAN_BEP false) <|
  .cons (.uint 3 EGPRS_BEP_LinkQualityMeasurements_type2_t.p16QAM_HSR_CV_BEP false) <|
  .opt EGPRS_BEP_LinkQualityMeasurements_type2_t.Exist_32QAM_HSR_MEAN_BEP false false 1 <|
  .cons (.uint 5 EGPRS_BEP_LinkQualityMeasurements_type2_t.p32QAM_HSR_MEAN_BEP false) <|
  .cons (.uint 3 EGPRS_BEP_LinkQualityMeasurements_type2_t.p32QAM_HSR_CV_BEP false) <|
  .nil

/-- BEP_MeasurementReport_type2_t, gsm_rlcmac.c:1284-1288 -/
def BEP_MeasurementReport_type2_t : Items :=
  .opt BEP_MeasurementReport_type2_t.Exist false false 1 <|
  .cons (.uint 2 BEP_MeasurementReport_type2_t.REPORTED_MODULATION false) <|
  .cons (.uint 4 BEP_MeasurementReport_type2_t.MEAN_BEP_TN false) <|
  .nil

/-- InterferenceMeasurementReport_type2_t, gsm_rlcmac.c:1291-1294 -/
def InterferenceMeasurementReport_type2_t : Items :=
  .opt InterferenceMeasurementReport_type2_t.Exist false false 1 <|
  .cons (.uint 4 InterferenceMeasurementReport_type2_t.I_LEVEL false) <|
  .nil

/-- EGPRS_TimeslotLinkQualityMeasurements_type2_t, gsm_rlcmac.c:1296-1302 -/
def EGPRS_TimeslotLinkQualityMeasurements_type2_t : Items :=
  .opt EGPRS_TimeslotLinkQualityMeasurements_type2_t.Exist_BEP_MEASUREMENTS false false 1 <|
  .cons (.typeArray BEP_MeasurementReport_type2_t EGPRS_TimeslotLinkQualityMeasurements_type2_t.BEP_MEASUREMENTS 8 8) <|
  .opt EGPRS_TimeslotLinkQualityMeasurements_type2_t.Exist_INTERFERENCE_MEASUREMENTS false false 1 <|
  .cons (.typeArray InterferenceMeasurementReport_type2_t EGPRS_TimeslotLinkQualityMeasurements_type2_t.INTERFERENCE_MEASUREMENTS 8 8) <|
  .nil

/-- PRR_AdditionsR12_t, gsm_rlcmac.c:1305-1310 -/
def PRR_AdditionsR12_t : Items :=
  .opt PRR_AdditionsR12_t.Exist_Downlink_eTFI false false 1 <|
  .cons (.uint 3 PRR_AdditionsR12_t.DOWNLINK_ETFI false) <|
  .nil

/-- PRR_AdditionsR10_t, gsm_rlcmac.c:1313-1319 -/
def PRR_AdditionsR10_t : Items :=
  .cons (.uint 1 PRR_AdditionsR10_t.LOW_ACCESS_PRIORITY_SIGNALLING false) <|
  .opt PRR_AdditionsR10_t.Exist_AdditionsR12 true false 1 <|
  .cons (.type PRR_AdditionsR12_t PRR_AdditionsR10_t.AdditionsR12 false) <|
  .nil

/-- PRR_AdditionsR7_t, gsm_rlcmac.c:1322-1334 -/
def PRR_AdditionsR7_t : Items :=
  .cons (.uint 1 PRR_AdditionsR7_t.EARLY_TBF_ESTABLISHMENT false) <|
  .opt PRR_AdditionsR7_t.Exist_EGPRS_BEP_LinkQualityMeasurements_type2 false false 1 <|
  .cons (.type EGPRS_BEP_LinkQualityMeasurements_type2_t PRR_AdditionsR7_t.EGPRS_BEP_LinkQualityMeasurements_type2 false) <|
  .opt PRR_AdditionsR7_t.Exist_EGPRS_TimeslotLinkQualityMeasurements_type2 false false 1 <|
  .cons (.type EGPRS_TimeslotLinkQualityMeasurements_type2_t PRR_AdditionsR7_t.EGPRS_TimeslotLinkQualityMeasurements_type2 false) <|
  .opt PRR_AdditionsR7_t.Exist_AdditionsR10 true false 1 <|
  .cons (.type PRR_AdditionsR10_t PRR_AdditionsR7_t.AdditionsR10 false) <|
  .nil

/-- PRR_AdditionsR6_t, gsm_rlcmac.c:1337-1344 -/
def PRR_AdditionsR6_t : Items :=
  .opt PRR_AdditionsR6_t.Exist_Ext_Channel_Request_desc false false 1 <|
  .cons (.type Ext_Channel_Request_desc_t PRR_AdditionsR6_t.Ext_Channel_Request_desc false) <|
  .opt PRR_AdditionsR6_t.Exist_AdditionsR7 true false 1 <|
  .cons (.type PRR_AdditionsR7_t PRR_AdditionsR6_t.AdditionsR7 false) <|
  .nil

/-- PRR_AdditionsR5_t, gsm_rlcmac.c:1347-1356 -/
def PRR_AdditionsR5_t : Items :=
  .opt PRR_AdditionsR5_t.Exist_Iu_Mode_ChRequestDesk false false 1 <|
  .cons (.type IU_Mode_Channel_Request_Desk_RNTI_t PRR_AdditionsR5_t.IU_Mode_Channel_Request_Desk_RNTI false) <|
  .opt PRR_AdditionsR5_t.Exist_HFN_LSB false false 1 <|
  .cons (.uint 7 PRR_AdditionsR5_t.HFN_LSb false) <|
  .opt PRR_AdditionsR5_t.Exist_AdditionsR6 true false 1 <|
  .cons (.type PRR_AdditionsR6_t PRR_AdditionsR5_t.AdditionsR6 false) <|
  .nil

/-- PRR_AdditionsR99_t, gsm_rlcmac.c:1359-1375 -/
def PRR_AdditionsR99_t : Items :=
  .opt PRR_AdditionsR99_t.Exist_EGPRS_BEP_LinkQualityMeasurements false false 1 <|
  .cons (.type EGPRS_BEP_LinkQualityMeasurements_t PRR_AdditionsR99_t.EGPRS_BEP_LinkQualityMeasurements false) <|
  .opt PRR_AdditionsR99_t.Exist_EGPRS_TimeslotLinkQualityMeasurements false false 1 <|
  .cons (.type EGPRS_TimeslotLinkQualityMeasurements_t PRR_AdditionsR99_t.EGPRS_TimeslotLinkQualityMeasurements false) <|
  .opt PRR_AdditionsR99_t.Exist_PFI false false 1 <|
  .cons (.uint 7 PRR_AdditionsR99_t.PFI false) <|
  .cons (.uint 1 PRR_AdditionsR99_t.MS_RAC_AdditionalInformationAvailable false) <|
  .cons (.uint 1 PRR_AdditionsR99_t.RetransmissionOfPRR false) <|
  .opt PRR_AdditionsR99_t.Exist_AdditionsR5 true false 1 <|
  .cons (.type PRR_AdditionsR5_t PRR_AdditionsR99_t.AdditionsR5 false) <|
  .nil

/-- Packet_Resource_Request_t, gsm_rlcmac.c:1378-1409 -/
def Packet_Resource_Request_t : Items :=
  .cons (.uint 2 Packet_Resource_Request_t.PayloadType false) <|
  .cons (.uint 5 Packet_Resource_Request_t.spare false) <|
  .cons (.uint 1 Packet_Resource_Request_t.R false) <|
  .cons (.uint 6 Packet_Resource_Request_t.MESSAGE_TYPE false) <|
  .opt Packet_Resource_Request_t.Exist_ACCESS_TYPE false false 1 <|
  .cons (.uint 2 Packet_Resource_Request_t.ACCESS_TYPE false) <|
  .cons (.type PacketResourceRequestID_t Packet_Resource_Request_t.ID false) <|
  .opt Packet_Resource_Request_t.Exist_MS_Radio_Access_capability2 false false 1 <|
  .cons (.type MS_Radio_Access_capability2_t Packet_Resource_Request_t.MS_Radio_Access_capability2 false) <|
  .cons (.type Channel_Request_Description_t Packet_Resource_Request_t.Channel_Request_Description false) <|
  .opt Packet_Resource_Request_t.Exist_CHANGE_MARK false false 1 <|
  .cons (.uint 2 Packet_Resource_Request_t.CHANGE_MARK false) <|
  .cons (.uint 6 Packet_Resource_Request_t.C_VALUE false) <|
  .opt Packet_Resource_Request_t.Exist_SIGN_VAR false false 1 <|
  .cons (.uint 6 Packet_Resource_Request_t.SIGN_VAR false) <|
  .cons (.typeArray InterferenceMeasurementReport_t Packet_Resource_Request_t.I_LEVEL_TN 8 8) <|
  .opt Packet_Resource_Request_t.Exist_AdditionsR99 true false 1 <|
  .cons (.type PRR_AdditionsR99_t Packet_Resource_Request_t.AdditionsR99 false) <|
  .cons (.padding) <|
  .nil

/-- Packet_Mobile_TBF_Status_t, gsm_rlcmac.c:1413-1427 -/
def Packet_Mobile_TBF_Status_t : Items :=
  .cons (.uint 2 Packet_Mobile_TBF_Status_t.PayloadType false) <|
  .cons (.uint 5 Packet_Mobile_TBF_Status_t.spare false) <|
  .cons (.uint 1 Packet_Mobile_TBF_Status_t.R false) <|
  .cons (.uint 6 Packet_Mobile_TBF_Status_t.MESSAGE_TYPE false) <|
  .cons (.type Global_TFI_t Packet_Mobile_TBF_Status_t.Global_TFI false) <|
  .cons (.uint 3 Packet_Mobile_TBF_Status_t.TBF_CAUSE false) <|
  .opt Packet_Mobile_TBF_Status_t.Exist_STATUS_MESSAGE_TYPE false false 1 <|
  .cons (.uint 6 Packet_Mobile_TBF_Status_t.STATUS_MESSAGE_TYPE false) <|
  .cons (.padding) <|
  .nil

/-- PSI_Message_t, gsm_rlcmac.c:1431-1437 -/
def PSI_Message_t : Items :=
  .cons (.uint 6 PSI_Message_t.PSI_MESSAGE_TYPE false) <|
  .cons (.uint 2 PSI_Message_t.PSIX_CHANGE_MARK false) <|
  .opt PSI_Message_t.Exist_PSIX_COUNT_and_Instance_Bitmap false false 2 <|
  .cons (.fixed 4 0) <|
  .cons (.fixed 1 0) <|
  .nil

/-- PSI_Message_List_t, gsm_rlcmac.c:1440-1444 -/
def PSI_Message_List_t : Items :=
  .cons (.recTArray PSI_Message_t PSI_Message_List_t.PSI_Message PSI_Message_List_t.Count_PSI_Message 10) <|
  .cons (.fixed 1 0) <|
  .cons (.uint 1 PSI_Message_List_t.ADDITIONAL_MSG_TYPE false) <|
  .nil

/-- Unknown_PSI_Message_List_t, gsm_rlcmac.c:1447-1450 -/
def Unknown_PSI_Message_List_t : Items :=
  .cons (.fixed 1 0) <|
  .cons (.uint 1 Unknown_PSI_Message_List_t.ADDITIONAL_MSG_TYPE false) <|
  .nil

/-- Packet_PSI_Status_t, gsm_rlcmac.c:1453-1466 -/
def Packet_PSI_Status_t : Items :=
  .cons (.uint 2 Packet_PSI_Status_t.PayloadType false) <|
  .cons (.uint 5 Packet_PSI_Status_t.spare false) <|
  .cons (.uint 1 Packet_PSI_Status_t.R false) <|
  .cons (.uint 6 Packet_PSI_Status_t.MESSAGE_TYPE false) <|
  .cons (.type Global_TFI_t Packet_PSI_Status_t.Global_TFI false) <|
  .cons (.uint 3 Packet_PSI_Status_t.PBCCH_CHANGE_MARK false) <|
  .cons (.type PSI_Message_List_t Packet_PSI_Status_t.PSI_Message_List false) <|
  .cons (.type Unknown_PSI_Message_List_t Packet_PSI_Status_t.Unknown_PSI_Message_List false) <|
  .cons (.padding) <|
  .nil

/-- EGPRS_ChannelQualityReport_t, gsm_rlcmac.c:1534-1538 -/
def EGPRS_ChannelQualityReport_t : Items :=
  .cons (.type EGPRS_BEP_LinkQualityMeasurements_t EGPRS_ChannelQualityReport_t.EGPRS_BEP_LinkQualityMeasurements false) <|
  .cons (.uint 6 EGPRS_ChannelQualityReport_t.C_VALUE false) <|
  .cons (.type EGPRS_TimeslotLinkQualityMeasurements_t EGPRS_ChannelQualityReport_t.EGPRS_TimeslotLinkQualityMeasurements false) <|
  .nil

/-- Extension_Bits_t, gsm_rlcmac.c:618-621 -/
def Extension_Bits_t : Items :=
  .cons (.uintOffset 6 Extension_Bits_t.extension_length 1) <|
  .cons (.leftVarBmp Extension_Bits_t.Extension_Info Extension_Bits_t.extension_length 8) <|
  .nil

/-- EGPRS_AckNack_Desc_t, gsm_rlcmac.c:170-182 -/
def EGPRS_AckNack_Desc_t : Items :=
  .cons (.uint 1 EGPRS_AckNack_Desc_t.FINAL_ACK_INDICATION false) <|
  .cons (.uint 1 EGPRS_AckNack_Desc_t.BEGINNING_OF_WINDOW false) <|
  .cons (.uint 1 EGPRS_AckNack_Desc_t.END_OF_WINDOW false) <|
  .cons (.uint 11 EGPRS_AckNack_Desc_t.STARTING_SEQUENCE_NUMBER false) <|
  .opt EGPRS_AckNack_Desc_t.Exist_CRBB false false 3 <|
  .cons (.uint 7 EGPRS_AckNack_Desc_t.CRBB_LENGTH false) <|
  .cons (.uint 1 EGPRS_AckNack_Desc_t.CRBB_STARTING_COLOR_CODE false) <|
  .cons (.leftVarBmp EGPRS_AckNack_Desc_t.CRBB EGPRS_AckNack_Desc_t.CRBB_LENGTH 16) <|
  .cons (.leftVarBmp1 EGPRS_AckNack_Desc_t.URBB EGPRS_AckNack_Desc_t.URBB_LENGTH 42) <|
  .nil

/-- EGPRS_AckNack_w_len_t, gsm_rlcmac.c:199-201 -/
def EGPRS_AckNack_w_len_t : Items :=
  .cons (.serialize 8 [] EGPRS_AckNack_Desc_t) <|
  .nil

/-- EGPRS_AckNack_t, gsm_rlcmac.c:204-208 -/
def EGPRS_AckNack_t : Items :=
  .cons (.union 1 EGPRS_AckNack_t.UnionType (.cons (.type EGPRS_AckNack_Desc_t EGPRS_AckNack_t.Desc false) (.cons (.type EGPRS_AckNack_w_len_t EGPRS_AckNack_t.Desc false) .nil))) <|
  .nil

/-- EGPRS_PD_AckNack_t, gsm_rlcmac.c:1541-1567 -/
def EGPRS_PD_AckNack_t : Items :=
  .cons (.uint 2 EGPRS_PD_AckNack_t.PayloadType false) <|
  .cons (.uint 5 EGPRS_PD_AckNack_t.spare false) <|
  .cons (.bit EGPRS_PD_AckNack_t.R) <|
  .cons (.uint 6 EGPRS_PD_AckNack_t.MESSAGE_TYPE false) <|
  .cons (.uint 5 EGPRS_PD_AckNack_t.DOWNLINK_TFI false) <|
  .cons (.uint 1 EGPRS_PD_AckNack_t.MS_OUT_OF_MEMORY false) <|
  .opt EGPRS_PD_AckNack_t.Exist_EGPRS_ChannelQualityReport false false 1 <|
  .cons (.type EGPRS_ChannelQualityReport_t EGPRS_PD_AckNack_t.EGPRS_ChannelQualityReport false) <|
  .opt EGPRS_PD_AckNack_t.Exist_ChannelRequestDescription false false 1 <|
  .cons (.type Channel_Request_Description_t EGPRS_PD_AckNack_t.ChannelRequestDescription false) <|
  .opt EGPRS_PD_AckNack_t.Exist_PFI false false 1 <|
  .cons (.uint 7 EGPRS_PD_AckNack_t.PFI false) <|
  .opt EGPRS_PD_AckNack_t.Exist_ExtensionBits false false 1 <|
  .cons (.type Extension_Bits_t EGPRS_PD_AckNack_t.ExtensionBits false) <|
  .cons (.type EGPRS_AckNack_t EGPRS_PD_AckNack_t.EGPRS_AckNack false) <|
  .cons (.padding) <|
  .nil

/-- Packet_Pause_t, gsm_rlcmac.c:4697-4702 -/
def Packet_Pause_t : Items :=
  .cons (.uint 2 Packet_Pause_t.MESSAGE_TYPE false) <|
  .cons (.uint 32 Packet_Pause_t.TLLI false) <|
  .cons (.bitmap 48 Packet_Pause_t.RAI 6) <|
  .cons (.padding) <|
  .nil

/-- RepeatedInvalid_BSIC_Info_t, gsm_rlcmac.c:3869-3873 -/
def RepeatedInvalid_BSIC_Info_t : Items :=
  .cons (.uint 5 RepeatedInvalid_BSIC_Info_t.BCCH_FREQ_N false) <|
  .cons (.uint 6 RepeatedInvalid_BSIC_Info_t.BSIC_N false) <|
  .cons (.uint 6 RepeatedInvalid_BSIC_Info_t.RXLEV_N false) <|
  .nil

/-- REPORTING_QUANTITY_Instance_t, gsm_rlcmac.c:3876-3879 -/
def REPORTING_QUANTITY_Instance_t : Items :=
  .opt REPORTING_QUANTITY_Instance_t.Exist_REPORTING_QUANTITY false false 1 <|
  .cons (.uint 6 REPORTING_QUANTITY_Instance_t.REPORTING_QUANTITY false) <|
  .nil

/-- ENH_NC_Measurement_Report_t, gsm_rlcmac.c:3890-3903 -/
def ENH_NC_Measurement_Report_t : Items :=
  .cons (.uint 1 ENH_NC_Measurement_Report_t.NC_MODE false) <|
  .cons (.union 1 ENH_NC_Measurement_Report_t.UnionType (.cons (.type BA_USED_t ENH_NC_Measurement_Report_t.u_BA_USED false) (.cons (.uint 2 ENH_NC_Measurement_Report_t.u_PSI3_CHANGE_MARK false) .nil))) <|
  .cons (.uint 1 ENH_NC_Measurement_Report_t.PMO_USED false) <|
  .cons (.uint 1 ENH_NC_Measurement_Report_t.BSIC_Seen false) <|
  .cons (.uint 1 ENH_NC_Measurement_Report_t.SCALE false) <|
  .opt ENH_NC_Measurement_Report_t.Exist_Serving_Cell_Data false false 1 <|
  .cons (.type Serving_Cell_Data_t ENH_NC_Measurement_Report_t.Serving_Cell_Data false) <|
  .cons (.recTArray RepeatedInvalid_BSIC_Info_t ENH_NC_Measurement_Report_t.RepeatedInvalid_BSIC_Info ENH_NC_Measurement_Report_t.Count_RepeatedInvalid_BSIC_Info 16) <|
  .opt ENH_NC_Measurement_Report_t.Exist_ReportBitmap false false 1 <|
  .cons (.varTArray REPORTING_QUANTITY_Instance_t ENH_NC_Measurement_Report_t.REPORTING_QUANTITY_Instances ENH_NC_Measurement_Report_t.Count_REPORTING_QUANTITY_Instances 96) <|
  .nil

/-- Bitmap_Report_Quantity_t, gsm_rlcmac.c:4084-4087 -/
def Bitmap_Report_Quantity_t : Items :=
  .opt Bitmap_Report_Quantity_t.Exist_REPORTING_QUANTITY false false 1 <|
  .cons (.uint 6 Bitmap_Report_Quantity_t.REPORTING_QUANTITY false) <|
  .nil

/-- PEMR_AdditionsR9_t, gsm_rlcmac.c:4076-4081 -/
def PEMR_AdditionsR9_t : Items :=
  .opt PEMR_AdditionsR9_t.Exist_UTRAN_CSG_Target_Cell false false 1 <|
  .cons (.type UTRAN_CSG_Target_Cell_t PEMR_AdditionsR9_t.UTRAN_CSG_Target_Cell false) <|
  .opt PEMR_AdditionsR9_t.Exist_EUTRAN_CSG_Target_Cell false false 1 <|
  .cons (.type EUTRAN_CSG_Target_Cell_t PEMR_AdditionsR9_t.EUTRAN_CSG_Target_Cell false) <|
  .nil

/-- PEMR_AdditionsR8_t, gsm_rlcmac.c:4090-4097 -/
def PEMR_AdditionsR8_t : Items :=
  .cons (.uintOffset 7 PEMR_AdditionsR8_t.BITMAP_LENGTH 1) <|
  .cons (.varTArray Bitmap_Report_Quantity_t PEMR_AdditionsR8_t.Bitmap_Report_Quantity PEMR_AdditionsR8_t.BITMAP_LENGTH 128) <|
  .opt PEMR_AdditionsR8_t.Exist_EUTRAN_Meas_Rpt false false 1 <|
  .cons (.type EUTRAN_Measurement_Report_t PEMR_AdditionsR8_t.EUTRAN_Meas_Rpt false) <|
  .opt PEMR_AdditionsR8_t.Exist_AdditionsR9 true false 1 <|
  .cons (.type PEMR_AdditionsR9_t PEMR_AdditionsR8_t.AdditionsR9 false) <|
  .nil

/-- PEMR_AdditionsR5_t, gsm_rlcmac.c:4100-4105 -/
def PEMR_AdditionsR5_t : Items :=
  .opt PEMR_AdditionsR5_t.Exist_GRNTI_Ext false false 1 <|
  .cons (.uint 4 PEMR_AdditionsR5_t.GRNTI_Ext false) <|
  .opt PEMR_AdditionsR5_t.Exist_AdditionsR8 true false 1 <|
  .cons (.type PEMR_AdditionsR8_t PEMR_AdditionsR5_t.AdditionsR8 false) <|
  .nil

/-- Packet_Enh_Measurement_Report_t, gsm_rlcmac.c:4109-4125 -/
def Packet_Enh_Measurement_Report_t : Items :=
  .cons (.uint 2 Packet_Enh_Measurement_Report_t.PayloadType false) <|
  .cons (.uint 5 Packet_Enh_Measurement_Report_t.spare false) <|
  .cons (.uint 1 Packet_Enh_Measurement_Report_t.R false) <|
  .cons (.uint 6 Packet_Enh_Measurement_Report_t.MESSAGE_TYPE false) <|
  .cons (.uint 32 Packet_Enh_Measurement_Report_t.TLLI false) <|
  .cons (.type ENH_NC_Measurement_Report_t Packet_Enh_Measurement_Report_t.Measurements false) <|
  .opt Packet_Enh_Measurement_Report_t.Exist_AdditionsR5 true false 1 <|
  .cons (.type PEMR_AdditionsR5_t Packet_Enh_Measurement_Report_t.AdditionsR5 false) <|
  .cons (.padding) <|
  .nil

/-- AdditionalMsRadAccessCapID, gsm_rlcmac.c:4664-4668 -/
def AdditionalMsRadAccessCapID : Alts :=
  .cons 1 0 (.type Global_TFI_t AdditionalMsRadAccessCapID_t.u_Global_TFI false) <|
  .cons 1 1 (.uint 32 AdditionalMsRadAccessCapID_t.u_TLLI false) <|
  .nil

/-- AdditionalMsRadAccessCapID_t, gsm_rlcmac.c:4671-4673 -/
def AdditionalMsRadAccessCapID_t : Items :=
  .cons (.choice AdditionalMsRadAccessCapID_t.UnionType AdditionalMsRadAccessCapID) <|
  .nil

/-- Additional_MS_Rad_Access_Cap_t, gsm_rlcmac.c:4677-4688 -/
def Additional_MS_Rad_Access_Cap_t : Items :=
  .cons (.uint 2 Additional_MS_Rad_Access_Cap_t.PayloadType false) <|
  .cons (.uint 5 Additional_MS_Rad_Access_Cap_t.spare false) <|
  .cons (.uint 1 Additional_MS_Rad_Access_Cap_t.R false) <|
  .cons (.uint 6 Additional_MS_Rad_Access_Cap_t.MESSAGE_TYPE false) <|
  .cons (.type AdditionalMsRadAccessCapID_t Additional_MS_Rad_Access_Cap_t.ID false) <|
  .cons (.type MS_Radio_Access_capability2_t Additional_MS_Rad_Access_Cap_t.MS_Radio_Access_capability2 false) <|
  .cons (.padding) <|
  .nil

/-- Target_Cell_GSM_Notif_t, gsm_rlcmac.c:4173-4176 -/
def Target_Cell_GSM_Notif_t : Items :=
  .cons (.uint 10 Target_Cell_GSM_Notif_t.ARFCN false) <|
  .cons (.uint 6 Target_Cell_GSM_Notif_t.BSIC false) <|
  .nil

/-- FDD_Target_Cell_Notif_t, gsm_rlcmac.c:4179-4184 -/
def FDD_Target_Cell_Notif_t : Items :=
  .cons (.uint 14 FDD_Target_Cell_Notif_t.FDD_ARFCN false) <|
  .opt FDD_Target_Cell_Notif_t.Exist_Bandwith_FDD false false 1 <|
  .cons (.uint 3 FDD_Target_Cell_Notif_t.BANDWITH_FDD false) <|
  .cons (.uint 9 FDD_Target_Cell_Notif_t.SCRAMBLING_CODE false) <|
  .nil

/-- TDD_Target_Cell_Notif_t, gsm_rlcmac.c:4187-4193 -/
def TDD_Target_Cell_Notif_t : Items :=
  .cons (.uint 14 TDD_Target_Cell_Notif_t.TDD_ARFCN false) <|
  .opt TDD_Target_Cell_Notif_t.Exist_Bandwith_TDD false false 1 <|
  .cons (.uint 3 TDD_Target_Cell_Notif_t.BANDWITH_TDD false) <|
  .cons (.uint 7 TDD_Target_Cell_Notif_t.CELL_PARAMETER false) <|
  .cons (.uint 1 TDD_Target_Cell_Notif_t.Sync_Case_TSTD false) <|
  .nil

/-- Target_Cell_3G_Notif_t, gsm_rlcmac.c:4196-4202 -/
def Target_Cell_3G_Notif_t : Items :=
  .opt Target_Cell_3G_Notif_t.Exist_FDD_Description false false 1 <|
  .cons (.type FDD_Target_Cell_Notif_t Target_Cell_3G_Notif_t.FDD_Target_Cell_Notif false) <|
  .opt Target_Cell_3G_Notif_t.Exist_TDD_Description false false 1 <|
  .cons (.type TDD_Target_Cell_Notif_t Target_Cell_3G_Notif_t.TDD_Target_Cell false) <|
  .cons (.uint 6 Target_Cell_3G_Notif_t.REPORTING_QUANTITY false) <|
  .nil

/-- Target_EUTRAN_Cell_Notif_t, gsm_rlcmac.c:4205-4211 -/
def Target_EUTRAN_Cell_Notif_t : Items :=
  .cons (.uint 16 Target_EUTRAN_Cell_Notif_t.EARFCN false) <|
  .opt Target_EUTRAN_Cell_Notif_t.Exist_Measurement_Bandwidth false false 1 <|
  .cons (.uint 3 Target_EUTRAN_Cell_Notif_t.Measurement_Bandwidth false) <|
  .cons (.uint 9 Target_EUTRAN_Cell_Notif_t.Physical_Layer_Cell_Identity false) <|
  .cons (.uint 6 Target_EUTRAN_Cell_Notif_t.Reporting_Quantity false) <|
  .nil

/-- Eutran_Ccn_Measurement_Report_Cell_t, gsm_rlcmac.c:4214-4218 -/
def Eutran_Ccn_Measurement_Report_Cell_t : Items :=
  .cons (.uint 3 Eutran_Ccn_Measurement_Report_Cell_t.EUTRAN_FREQUENCY_INDEX false) <|
  .cons (.uint 9 Eutran_Ccn_Measurement_Report_Cell_t.CELL_IDENTITY false) <|
  .cons (.uint 6 Eutran_Ccn_Measurement_Report_Cell_t.REPORTING_QUANTITY false) <|
  .nil

/-- Eutran_Ccn_Measurement_Report_t, gsm_rlcmac.c:4222-4226 -/
def Eutran_Ccn_Measurement_Report_t : Items :=
  .cons (.uint 1 Eutran_Ccn_Measurement_Report_t.ThreeG_BA_USED false) <|
  .cons (.uintOffset 2 Eutran_Ccn_Measurement_Report_t.N_EUTRAN 1) <|
  .cons (.varTArray Eutran_Ccn_Measurement_Report_Cell_t Eutran_Ccn_Measurement_Report_t.Eutran_Ccn_Measurement_Report_Cell Eutran_Ccn_Measurement_Report_t.N_EUTRAN 4) <|
  .nil

/-- Target_Cell_4G_Notif_t, gsm_rlcmac.c:4229-4239 -/
def Target_Cell_4G_Notif_t : Items :=
  .opt Target_Cell_4G_Notif_t.Exist_Arfcn false false 2 <|
  .cons (.uint 10 Target_Cell_4G_Notif_t.Arfcn false) <|
  .cons (.uint 6 Target_Cell_4G_Notif_t.bsic false) <|
  .opt Target_Cell_4G_Notif_t.Exist_3G_Target_Cell false false 1 <|
  .cons (.type Target_Cell_3G_Notif_t Target_Cell_4G_Notif_t.Target_Cell_3G_Notif false) <|
  .opt Target_Cell_4G_Notif_t.Exist_Eutran_Target_Cell false false 1 <|
  .cons (.type Target_EUTRAN_Cell_Notif_t Target_Cell_4G_Notif_t.Target_EUTRAN_Cell false) <|
  .opt Target_Cell_4G_Notif_t.Exist_Eutran_Ccn_Measurement_Report false false 1 <|
  .cons (.type Eutran_Ccn_Measurement_Report_t Target_Cell_4G_Notif_t.Eutran_Ccn_Measurement_Report false) <|
  .nil

/-- Target_Cell_CSG_Notif_t, gsm_rlcmac.c:4242-4249 -/
def Target_Cell_CSG_Notif_t : Items :=
  .cons (.fixed 1 0) <|
  .cons (.union 1 Target_Cell_CSG_Notif_t.UnionType (.cons (.type UTRAN_CSG_Measurement_Report_t Target_Cell_CSG_Notif_t.u_UTRAN_CSG_Measurement_Report false) (.cons (.type EUTRAN_CSG_Measurement_Report_t Target_Cell_CSG_Notif_t.u_EUTRAN_CSG_Measurement_Report false) .nil))) <|
  .opt Target_Cell_CSG_Notif_t.Exist_Eutran_Ccn_Measurement_Report false false 1 <|
  .cons (.type Eutran_Ccn_Measurement_Report_t Target_Cell_CSG_Notif_t.Eutran_Ccn_Measurement_Report false) <|
  .nil

/-- Target_Other_RAT_2_Notif_t, gsm_rlcmac.c:4252-4257 -/
def Target_Other_RAT_2_Notif_t : Items :=
  .cons (.union 1 Target_Other_RAT_2_Notif_t.UnionType (.cons (.type Target_Cell_4G_Notif_t Target_Other_RAT_2_Notif_t.u_Target_Cell_4G_Notif false) (.cons (.type Target_Cell_CSG_Notif_t Target_Other_RAT_2_Notif_t.u_Target_Cell_CSG_Notif false) .nil))) <|
  .nil

/-- Target_Other_RAT_Notif_t, gsm_rlcmac.c:4260-4265 -/
def Target_Other_RAT_Notif_t : Items :=
  .cons (.union 1 Target_Other_RAT_Notif_t.UnionType (.cons (.type Target_Cell_3G_Notif_t Target_Other_RAT_Notif_t.u_Target_Cell_3G_Notif false) (.cons (.type Target_Other_RAT_2_Notif_t Target_Other_RAT_Notif_t.u_Target_Other_RAT_2_Notif false) .nil))) <|
  .nil

/-- Target_Cell_t, gsm_rlcmac.c:4268-4273 -/
def Target_Cell_t : Items :=
  .cons (.union 1 Target_Cell_t.UnionType (.cons (.type Target_Cell_GSM_Notif_t Target_Cell_t.u_Target_Cell_GSM_Notif false) (.cons (.type Target_Other_RAT_Notif_t Target_Cell_t.u_Target_Other_RAT_Notif false) .nil))) <|
  .nil

/-- CCN_Measurement_Report_t, gsm_rlcmac.c:4165-4170 -/
def CCN_Measurement_Report_t : Items :=
  .cons (.uint 6 CCN_Measurement_Report_t.RXLEV_SERVING_CELL false) <|
  .cons (.fixed 1 0) <|
  .cons (.uint 3 CCN_Measurement_Report_t.NUMBER_OF_NC_MEASUREMENTS false) <|
  .cons (.varTArray NC_Measurements_t CCN_Measurement_Report_t.NC_Measurements CCN_Measurement_Report_t.NUMBER_OF_NC_MEASUREMENTS 6) <|
  .nil

/-- PCCN_AdditionsR6_t, gsm_rlcmac.c:4276-4282 -/
def PCCN_AdditionsR6_t : Items :=
  .opt PCCN_AdditionsR6_t.Exist_BA_USED_3G false false 1 <|
  .cons (.uint 1 PCCN_AdditionsR6_t.BA_USED_3G false) <|
  .cons (.uintOffset 3 PCCN_AdditionsR6_t.N_3G 1) <|
  .cons (.varTArray Measurements_3G_t PCCN_AdditionsR6_t.Measurements_3G PCCN_AdditionsR6_t.N_3G 6) <|
  .nil

/-- Packet_Cell_Change_Notification_t, gsm_rlcmac.c:4286-4309 -/
def Packet_Cell_Change_Notification_t : Items :=
  .cons (.uint 2 Packet_Cell_Change_Notification_t.PayloadType false) <|
  .cons (.uint 5 Packet_Cell_Change_Notification_t.spare false) <|
  .cons (.uint 1 Packet_Cell_Change_Notification_t.R false) <|
  .cons (.uint 6 Packet_Cell_Change_Notification_t.MESSAGE_TYPE false) <|
  .cons (.type Global_TFI_t Packet_Cell_Change_Notification_t.Global_TFI false) <|
  .cons (.type Target_Cell_t Packet_Cell_Change_Notification_t.Target_Cell false) <|
  .cons (.union 1 Packet_Cell_Change_Notification_t.UnionType (.cons (.uint 1 Packet_Cell_Change_Notification_t.u_BA_IND false) (.cons (.uint 2 Packet_Cell_Change_Notification_t.u_PSI3_CHANGE_MARK false) .nil))) <|
  .cons (.uint 1 Packet_Cell_Change_Notification_t.PMO_USED false) <|
  .cons (.uint 1 Packet_Cell_Change_Notification_t.PCCN_SENDING false) <|
  .cons (.type CCN_Measurement_Report_t Packet_Cell_Change_Notification_t.CCN_Measurement_Report false) <|
  .opt Packet_Cell_Change_Notification_t.Exist_AdditionsR6 true false 1 <|
  .cons (.type PCCN_AdditionsR6_t Packet_Cell_Change_Notification_t.AdditionsR6 false) <|
  .cons (.padding) <|
  .nil

/-- SI_Message_t, gsm_rlcmac.c:1471-1474 -/
def SI_Message_t : Items :=
  .cons (.uint 8 SI_Message_t.SI_MESSAGE_TYPE false) <|
  .cons (.uint 2 SI_Message_t.MESS_REC false) <|
  .nil

/-- SI_Message_List_t, gsm_rlcmac.c:1477-1481 -/
def SI_Message_List_t : Items :=
  .cons (.recTArray SI_Message_t SI_Message_List_t.SI_Message SI_Message_List_t.Count_SI_Message 10) <|
  .cons (.fixed 1 0) <|
  .cons (.uint 1 SI_Message_List_t.ADDITIONAL_MSG_TYPE false) <|
  .nil

/-- Unknown_SI_Message_List_t, gsm_rlcmac.c:1484-1487 -/
def Unknown_SI_Message_List_t : Items :=
  .cons (.fixed 1 0) <|
  .cons (.uint 1 Unknown_SI_Message_List_t.ADDITIONAL_MSG_TYPE false) <|
  .nil

/-- Packet_SI_Status_t, gsm_rlcmac.c:1490-1503 -/
def Packet_SI_Status_t : Items :=
  .cons (.uint 2 Packet_SI_Status_t.PayloadType false) <|
  .cons (.uint 5 Packet_SI_Status_t.spare false) <|
  .cons (.uint 1 Packet_SI_Status_t.R false) <|
  .cons (.uint 6 Packet_SI_Status_t.MESSAGE_TYPE false) <|
  .cons (.type Global_TFI_t Packet_SI_Status_t.Global_TFI false) <|
  .cons (.uint 3 Packet_SI_Status_t.BCCH_CHANGE_MARK false) <|
  .cons (.type SI_Message_List_t Packet_SI_Status_t.SI_Message_List false) <|
  .cons (.type Unknown_SI_Message_List_t Packet_SI_Status_t.Unknown_SI_Message_List false) <|
  .cons (.padding) <|
  .nil

/-- MS_Radio_Access_capability_t, gsm_rlcmac.c:1006-1009 -/
def MS_Radio_Access_capability_t : Items :=
  .cons (.recTArray1 MS_RA_capability_value_t MS_Radio_Access_capability_t.MS_RA_capability_value MS_Radio_Access_capability_t.Count_MS_RA_capability_value 11) <|
  .cons (.padding) <|
  .nil

end Verif.Csn1.T
