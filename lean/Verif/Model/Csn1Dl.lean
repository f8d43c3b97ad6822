import Verif.Model.Csn1Ul
/-!
# Control messages to mobiles

Tables of `src/gsm_rlcmac.c` in the form of `Verif.Csn1.Items`, with sizes of arrays from `src/gsm_rlcmac.h`.
Transcribed mechanically: entries, widths, counts and order are those of the macros. Members of the C structures
are numbered; the number of a member has its name. Members `X[i].Y` of an array of structures are `X_Y i`.
-/

namespace Verif.Csn1.T

open Verif.Csn1

/-- Member of `Packet_Request_Reference_t` (gsm_rlcmac.h) -/
abbrev Packet_Request_Reference_t.RANDOM_ACCESS_INFORMATION : Nat := 1595
/-- Member of `Packet_Request_Reference_t` (gsm_rlcmac.h) -/
abbrev Packet_Request_Reference_t.FRAME_NUMBER : Nat := 1596
/-- Member of `PacketUplinkID_t` (gsm_rlcmac.h) -/
abbrev PacketUplinkID_t.u_Global_TFI : Nat := 1597
/-- Member of `PacketUplinkID_t` (gsm_rlcmac.h) -/
abbrev PacketUplinkID_t.u_TLLI : Nat := 1598
/-- Member of `PacketUplinkID_t` (gsm_rlcmac.h) -/
abbrev PacketUplinkID_t.u_TQI : Nat := 1599
/-- Member of `PacketUplinkID_t` (gsm_rlcmac.h) -/
abbrev PacketUplinkID_t.u_Packet_Request_Reference : Nat := 1600
/-- Member of `PacketUplinkID_t` (gsm_rlcmac.h) -/
abbrev PacketUplinkID_t.UnionType : Nat := 1601
/-- Member of `Packet_Timing_Advance_t` (gsm_rlcmac.h) -/
abbrev Packet_Timing_Advance_t.Exist_TIMING_ADVANCE_VALUE : Nat := 1602
/-- Member of `Packet_Timing_Advance_t` (gsm_rlcmac.h) -/
abbrev Packet_Timing_Advance_t.TIMING_ADVANCE_VALUE : Nat := 1603
/-- Member of `Packet_Timing_Advance_t` (gsm_rlcmac.h) -/
abbrev Packet_Timing_Advance_t.Exist_IndexAndtimeSlot : Nat := 1604
/-- Member of `Packet_Timing_Advance_t` (gsm_rlcmac.h) -/
abbrev Packet_Timing_Advance_t.TIMING_ADVANCE_INDEX : Nat := 1605
/-- Member of `Packet_Timing_Advance_t` (gsm_rlcmac.h) -/
abbrev Packet_Timing_Advance_t.TIMING_ADVANCE_TIMESLOT_NUMBER : Nat := 1606
/-- Member of `CHANGE_MARK_t` (gsm_rlcmac.h) -/
abbrev CHANGE_MARK_t.CHANGE_MARK_1 : Nat := 1607
/-- Member of `CHANGE_MARK_t` (gsm_rlcmac.h) -/
abbrev CHANGE_MARK_t.Exist_CHANGE_MARK_2 : Nat := 1608
/-- Member of `CHANGE_MARK_t` (gsm_rlcmac.h) -/
abbrev CHANGE_MARK_t.CHANGE_MARK_2 : Nat := 1609
/-- Member of `Indirect_encoding_t` (gsm_rlcmac.h) -/
abbrev Indirect_encoding_t.MAIO : Nat := 1610
/-- Member of `Indirect_encoding_t` (gsm_rlcmac.h) -/
abbrev Indirect_encoding_t.MA_NUMBER : Nat := 1611
/-- Member of `Indirect_encoding_t` (gsm_rlcmac.h) -/
abbrev Indirect_encoding_t.Exist_CHANGE_MARK : Nat := 1612
/-- Member of `Indirect_encoding_t` (gsm_rlcmac.h) -/
abbrev Indirect_encoding_t.CHANGE_MARK : Nat := 1613
/-- Member of `MobileAllocation_t` (gsm_rlcmac.h) -/
abbrev MobileAllocation_t.MA_BitLength : Nat := 1614
/-- Member of `MobileAllocation_t` (gsm_rlcmac.h) -/
abbrev MobileAllocation_t.MA_BITMAP : Nat := 1615
/-- Member of `ARFCN_index_list_t` (gsm_rlcmac.h) -/
abbrev ARFCN_index_list_t.ARFCN_INDEX : Nat := 1616
/-- Member of `ARFCN_index_list_t` (gsm_rlcmac.h) -/
abbrev ARFCN_index_list_t.ElementsOf_ARFCN_INDEX : Nat := 1617
/-- Member of `GPRS_Mobile_Allocation_t` (gsm_rlcmac.h) -/
abbrev GPRS_Mobile_Allocation_t.HSN : Nat := 1618
/-- Member of `GPRS_Mobile_Allocation_t` (gsm_rlcmac.h) -/
abbrev GPRS_Mobile_Allocation_t.RFL_NUMBER : Nat := 1619
/-- Member of `GPRS_Mobile_Allocation_t` (gsm_rlcmac.h) -/
abbrev GPRS_Mobile_Allocation_t.ElementsOf_RFL_NUMBER : Nat := 1620
/-- Member of `GPRS_Mobile_Allocation_t` (gsm_rlcmac.h) -/
abbrev GPRS_Mobile_Allocation_t.u_MA : Nat := 1621
/-- Member of `GPRS_Mobile_Allocation_t` (gsm_rlcmac.h) -/
abbrev GPRS_Mobile_Allocation_t.u_ARFCN_index_list : Nat := 1622
/-- Member of `GPRS_Mobile_Allocation_t` (gsm_rlcmac.h) -/
abbrev GPRS_Mobile_Allocation_t.UnionType : Nat := 1623
/-- Member of `Direct_encoding_1_t` (gsm_rlcmac.h) -/
abbrev Direct_encoding_1_t.MAIO : Nat := 1624
/-- Member of `Direct_encoding_1_t` (gsm_rlcmac.h) -/
abbrev Direct_encoding_1_t.GPRS_Mobile_Allocation : Nat := 1625
/-- Member of `Direct_encoding_2_t` (gsm_rlcmac.h) -/
abbrev Direct_encoding_2_t.MAIO : Nat := 1626
/-- Member of `Direct_encoding_2_t` (gsm_rlcmac.h) -/
abbrev Direct_encoding_2_t.HSN : Nat := 1627
/-- Member of `Direct_encoding_2_t` (gsm_rlcmac.h) -/
abbrev Direct_encoding_2_t.Length_of_MA_Frequency_List : Nat := 1628
/-- Member of `Direct_encoding_2_t` (gsm_rlcmac.h) -/
abbrev Direct_encoding_2_t.MA_Frequency_List : Nat := 1629
/-- Member of `Frequency_Parameters_t` (gsm_rlcmac.h) -/
abbrev Frequency_Parameters_t.TSC : Nat := 1630
/-- Member of `Frequency_Parameters_t` (gsm_rlcmac.h) -/
abbrev Frequency_Parameters_t.u_ARFCN : Nat := 1631
/-- Member of `Frequency_Parameters_t` (gsm_rlcmac.h) -/
abbrev Frequency_Parameters_t.u_Indirect_encoding : Nat := 1632
/-- Member of `Frequency_Parameters_t` (gsm_rlcmac.h) -/
abbrev Frequency_Parameters_t.u_Direct_encoding_1 : Nat := 1633
/-- Member of `Frequency_Parameters_t` (gsm_rlcmac.h) -/
abbrev Frequency_Parameters_t.u_Direct_encoding_2 : Nat := 1634
/-- Member of `Frequency_Parameters_t` (gsm_rlcmac.h) -/
abbrev Frequency_Parameters_t.UnionType : Nat := 1635
/-- Member of `StartingTime_t` (gsm_rlcmac.h) -/
abbrev StartingTime_t.N32 : Nat := 1636
/-- Member of `StartingTime_t` (gsm_rlcmac.h) -/
abbrev StartingTime_t.N51 : Nat := 1637
/-- Member of `StartingTime_t` (gsm_rlcmac.h) -/
abbrev StartingTime_t.N26 : Nat := 1638
/-- Member of `Starting_Frame_Number_t` (gsm_rlcmac.h) -/
abbrev Starting_Frame_Number_t.u_StartingTime : Nat := 1639
/-- Member of `Starting_Frame_Number_t` (gsm_rlcmac.h) -/
abbrev Starting_Frame_Number_t.u_k : Nat := 1640
/-- Member of `Starting_Frame_Number_t` (gsm_rlcmac.h) -/
abbrev Starting_Frame_Number_t.UnionType : Nat := 1641
/-- Member of `Timeslot_Allocation_t` (gsm_rlcmac.h) -/
abbrev Timeslot_Allocation_t.Exist : Nat := 1642
/-- Member of `Timeslot_Allocation_t` (gsm_rlcmac.h) -/
abbrev Timeslot_Allocation_t.USF_TN : Nat := 1643
/-- Member of `Timeslot_Allocation_Power_Ctrl_Param_t` (gsm_rlcmac.h) -/
abbrev Timeslot_Allocation_Power_Ctrl_Param_t.ALPHA : Nat := 1644
/-- `Slot[i].Exist` of `Timeslot_Allocation_Power_Ctrl_Param_t` (gsm_rlcmac.h) -/
abbrev Timeslot_Allocation_Power_Ctrl_Param_t.Slot_Exist (i : Nat) : Nat := 1645 + i
/-- `Slot[i].USF_TN` of `Timeslot_Allocation_Power_Ctrl_Param_t` (gsm_rlcmac.h) -/
abbrev Timeslot_Allocation_Power_Ctrl_Param_t.Slot_USF_TN (i : Nat) : Nat := 1653 + i
/-- `Slot[i].GAMMA_TN` of `Timeslot_Allocation_Power_Ctrl_Param_t` (gsm_rlcmac.h) -/
abbrev Timeslot_Allocation_Power_Ctrl_Param_t.Slot_GAMMA_TN (i : Nat) : Nat := 1661 + i
/-- Member of `Dynamic_Allocation_t` (gsm_rlcmac.h) -/
abbrev Dynamic_Allocation_t.Extended_Dynamic_Allocation : Nat := 1669
/-- Member of `Dynamic_Allocation_t` (gsm_rlcmac.h) -/
abbrev Dynamic_Allocation_t.Exist_P0 : Nat := 1670
/-- Member of `Dynamic_Allocation_t` (gsm_rlcmac.h) -/
abbrev Dynamic_Allocation_t.P0 : Nat := 1671
/-- Member of `Dynamic_Allocation_t` (gsm_rlcmac.h) -/
abbrev Dynamic_Allocation_t.PR_MODE : Nat := 1672
/-- Member of `Dynamic_Allocation_t` (gsm_rlcmac.h) -/
abbrev Dynamic_Allocation_t.USF_GRANULARITY : Nat := 1673
/-- Member of `Dynamic_Allocation_t` (gsm_rlcmac.h) -/
abbrev Dynamic_Allocation_t.Exist_UPLINK_TFI_ASSIGNMENT : Nat := 1674
/-- Member of `Dynamic_Allocation_t` (gsm_rlcmac.h) -/
abbrev Dynamic_Allocation_t.UPLINK_TFI_ASSIGNMENT : Nat := 1675
/-- Member of `Dynamic_Allocation_t` (gsm_rlcmac.h) -/
abbrev Dynamic_Allocation_t.Exist_RLC_DATA_BLOCKS_GRANTED : Nat := 1676
/-- Member of `Dynamic_Allocation_t` (gsm_rlcmac.h) -/
abbrev Dynamic_Allocation_t.RLC_DATA_BLOCKS_GRANTED : Nat := 1677
/-- Member of `Dynamic_Allocation_t` (gsm_rlcmac.h) -/
abbrev Dynamic_Allocation_t.Exist_TBF_Starting_Time : Nat := 1678
/-- Member of `Dynamic_Allocation_t` (gsm_rlcmac.h) -/
abbrev Dynamic_Allocation_t.TBF_Starting_Time : Nat := 1679
/-- Member of `Dynamic_Allocation_t` (gsm_rlcmac.h) -/
abbrev Dynamic_Allocation_t.u_Timeslot_Allocation : Nat := 1680
/-- Member of `Dynamic_Allocation_t` (gsm_rlcmac.h) -/
abbrev Dynamic_Allocation_t.u_Timeslot_Allocation_Power_Ctrl_Param : Nat := 1681
/-- Member of `Dynamic_Allocation_t` (gsm_rlcmac.h) -/
abbrev Dynamic_Allocation_t.UnionType : Nat := 1682
/-- Member of `Single_Block_Allocation_t` (gsm_rlcmac.h) -/
abbrev Single_Block_Allocation_t.TIMESLOT_NUMBER : Nat := 1683
/-- Member of `Single_Block_Allocation_t` (gsm_rlcmac.h) -/
abbrev Single_Block_Allocation_t.Exist_ALPHA_and_GAMMA_TN : Nat := 1684
/-- Member of `Single_Block_Allocation_t` (gsm_rlcmac.h) -/
abbrev Single_Block_Allocation_t.ALPHA : Nat := 1685
/-- Member of `Single_Block_Allocation_t` (gsm_rlcmac.h) -/
abbrev Single_Block_Allocation_t.GAMMA_TN : Nat := 1686
/-- Member of `Single_Block_Allocation_t` (gsm_rlcmac.h) -/
abbrev Single_Block_Allocation_t.Exist_P0 : Nat := 1687
/-- Member of `Single_Block_Allocation_t` (gsm_rlcmac.h) -/
abbrev Single_Block_Allocation_t.P0 : Nat := 1688
/-- Member of `Single_Block_Allocation_t` (gsm_rlcmac.h) -/
abbrev Single_Block_Allocation_t.BTS_PWR_CTRL_MODE : Nat := 1689
/-- Member of `Single_Block_Allocation_t` (gsm_rlcmac.h) -/
abbrev Single_Block_Allocation_t.PR_MODE : Nat := 1690
/-- Member of `Single_Block_Allocation_t` (gsm_rlcmac.h) -/
abbrev Single_Block_Allocation_t.TBF_Starting_Time : Nat := 1691
/-- Member of `PUA_GPRS_AdditionsR99_t` (gsm_rlcmac.h) -/
abbrev PUA_GPRS_AdditionsR99_t.Exist_Packet_Extended_Timing_Advance : Nat := 1692
/-- Member of `PUA_GPRS_AdditionsR99_t` (gsm_rlcmac.h) -/
abbrev PUA_GPRS_AdditionsR99_t.Packet_Extended_Timing_Advance : Nat := 1693
/-- Member of `PUA_GPRS_t` (gsm_rlcmac.h) -/
abbrev PUA_GPRS_t.CHANNEL_CODING_COMMAND : Nat := 1694
/-- Member of `PUA_GPRS_t` (gsm_rlcmac.h) -/
abbrev PUA_GPRS_t.TLLI_BLOCK_CHANNEL_CODING : Nat := 1695
/-- Member of `PUA_GPRS_t` (gsm_rlcmac.h) -/
abbrev PUA_GPRS_t.Packet_Timing_Advance : Nat := 1696
/-- Member of `PUA_GPRS_t` (gsm_rlcmac.h) -/
abbrev PUA_GPRS_t.Exist_Frequency_Parameters : Nat := 1697
/-- Member of `PUA_GPRS_t` (gsm_rlcmac.h) -/
abbrev PUA_GPRS_t.Frequency_Parameters : Nat := 1698
/-- Member of `PUA_GPRS_t` (gsm_rlcmac.h) -/
abbrev PUA_GPRS_t.u_Dynamic_Allocation : Nat := 1699
/-- Member of `PUA_GPRS_t` (gsm_rlcmac.h) -/
abbrev PUA_GPRS_t.u_Single_Block_Allocation : Nat := 1700
/-- Member of `PUA_GPRS_t` (gsm_rlcmac.h) -/
abbrev PUA_GPRS_t.UnionType : Nat := 1701
/-- Member of `PUA_GPRS_t` (gsm_rlcmac.h) -/
abbrev PUA_GPRS_t.Exist_AdditionsR99 : Nat := 1702
/-- Member of `PUA_GPRS_t` (gsm_rlcmac.h) -/
abbrev PUA_GPRS_t.AdditionsR99 : Nat := 1703
/-- Member of `COMPACT_ReducedMA_t` (gsm_rlcmac.h) -/
abbrev COMPACT_ReducedMA_t.BitmapLength : Nat := 1704
/-- Member of `COMPACT_ReducedMA_t` (gsm_rlcmac.h) -/
abbrev COMPACT_ReducedMA_t.ReducedMA_Bitmap : Nat := 1705
/-- Member of `COMPACT_ReducedMA_t` (gsm_rlcmac.h) -/
abbrev COMPACT_ReducedMA_t.Exist_MAIO_2 : Nat := 1706
/-- Member of `COMPACT_ReducedMA_t` (gsm_rlcmac.h) -/
abbrev COMPACT_ReducedMA_t.MAIO_2 : Nat := 1707
/-- Member of `MultiBlock_Allocation_t` (gsm_rlcmac.h) -/
abbrev MultiBlock_Allocation_t.TIMESLOT_NUMBER : Nat := 1708
/-- Member of `MultiBlock_Allocation_t` (gsm_rlcmac.h) -/
abbrev MultiBlock_Allocation_t.Exist_ALPHA_GAMMA_TN : Nat := 1709
/-- Member of `MultiBlock_Allocation_t` (gsm_rlcmac.h) -/
abbrev MultiBlock_Allocation_t.ALPHA : Nat := 1710
/-- Member of `MultiBlock_Allocation_t` (gsm_rlcmac.h) -/
abbrev MultiBlock_Allocation_t.GAMMA_TN : Nat := 1711
/-- Member of `MultiBlock_Allocation_t` (gsm_rlcmac.h) -/
abbrev MultiBlock_Allocation_t.Exist_P0_BTS_PWR_CTRL_PR_MODE : Nat := 1712
/-- Member of `MultiBlock_Allocation_t` (gsm_rlcmac.h) -/
abbrev MultiBlock_Allocation_t.P0 : Nat := 1713
/-- Member of `MultiBlock_Allocation_t` (gsm_rlcmac.h) -/
abbrev MultiBlock_Allocation_t.BTS_PWR_CTRL_MODE : Nat := 1714
/-- Member of `MultiBlock_Allocation_t` (gsm_rlcmac.h) -/
abbrev MultiBlock_Allocation_t.PR_MODE : Nat := 1715
/-- Member of `MultiBlock_Allocation_t` (gsm_rlcmac.h) -/
abbrev MultiBlock_Allocation_t.TBF_Starting_Time : Nat := 1716
/-- Member of `MultiBlock_Allocation_t` (gsm_rlcmac.h) -/
abbrev MultiBlock_Allocation_t.NUMBER_OF_RADIO_BLOCKS_ALLOCATED : Nat := 1717
/-- Member of `PUA_EGPRS_00_t` (gsm_rlcmac.h) -/
abbrev PUA_EGPRS_00_t.Exist_CONTENTION_RESOLUTION_TLLI : Nat := 1718
/-- Member of `PUA_EGPRS_00_t` (gsm_rlcmac.h) -/
abbrev PUA_EGPRS_00_t.CONTENTION_RESOLUTION_TLLI : Nat := 1719
/-- Member of `PUA_EGPRS_00_t` (gsm_rlcmac.h) -/
abbrev PUA_EGPRS_00_t.Exist_COMPACT_ReducedMA : Nat := 1720
/-- Member of `PUA_EGPRS_00_t` (gsm_rlcmac.h) -/
abbrev PUA_EGPRS_00_t.COMPACT_ReducedMA : Nat := 1721
/-- Member of `PUA_EGPRS_00_t` (gsm_rlcmac.h) -/
abbrev PUA_EGPRS_00_t.EGPRS_CHANNEL_CODING_COMMAND : Nat := 1722
/-- Member of `PUA_EGPRS_00_t` (gsm_rlcmac.h) -/
abbrev PUA_EGPRS_00_t.RESEGMENT : Nat := 1723
/-- Member of `PUA_EGPRS_00_t` (gsm_rlcmac.h) -/
abbrev PUA_EGPRS_00_t.EGPRS_WindowSize : Nat := 1724
/-- Member of `PUA_EGPRS_00_t` (gsm_rlcmac.h) -/
abbrev PUA_EGPRS_00_t.AccessTechnologyType : Nat := 1725
/-- Member of `PUA_EGPRS_00_t` (gsm_rlcmac.h) -/
abbrev PUA_EGPRS_00_t.NrOfAccessTechnologies : Nat := 1726
/-- Member of `PUA_EGPRS_00_t` (gsm_rlcmac.h) -/
abbrev PUA_EGPRS_00_t.ARAC_RETRANSMISSION_REQUEST : Nat := 1727
/-- Member of `PUA_EGPRS_00_t` (gsm_rlcmac.h) -/
abbrev PUA_EGPRS_00_t.TLLI_BLOCK_CHANNEL_CODING : Nat := 1728
/-- Member of `PUA_EGPRS_00_t` (gsm_rlcmac.h) -/
abbrev PUA_EGPRS_00_t.Exist_BEP_PERIOD2 : Nat := 1729
/-- Member of `PUA_EGPRS_00_t` (gsm_rlcmac.h) -/
abbrev PUA_EGPRS_00_t.BEP_PERIOD2 : Nat := 1730
/-- Member of `PUA_EGPRS_00_t` (gsm_rlcmac.h) -/
abbrev PUA_EGPRS_00_t.Packet_Timing_Advance : Nat := 1731
/-- Member of `PUA_EGPRS_00_t` (gsm_rlcmac.h) -/
abbrev PUA_EGPRS_00_t.Exist_Packet_Extended_Timing_Advance : Nat := 1732
/-- Member of `PUA_EGPRS_00_t` (gsm_rlcmac.h) -/
abbrev PUA_EGPRS_00_t.Packet_Extended_Timing_Advance : Nat := 1733
/-- Member of `PUA_EGPRS_00_t` (gsm_rlcmac.h) -/
abbrev PUA_EGPRS_00_t.Exist_Frequency_Parameters : Nat := 1734
/-- Member of `PUA_EGPRS_00_t` (gsm_rlcmac.h) -/
abbrev PUA_EGPRS_00_t.Frequency_Parameters : Nat := 1735
/-- Member of `PUA_EGPRS_00_t` (gsm_rlcmac.h) -/
abbrev PUA_EGPRS_00_t.u_Dynamic_Allocation : Nat := 1736
/-- Member of `PUA_EGPRS_00_t` (gsm_rlcmac.h) -/
abbrev PUA_EGPRS_00_t.u_MultiBlock_Allocation : Nat := 1737
/-- Member of `PUA_EGPRS_00_t` (gsm_rlcmac.h) -/
abbrev PUA_EGPRS_00_t.UnionType : Nat := 1738
/-- Member of `PUA_EGPRS_t` (gsm_rlcmac.h) -/
abbrev PUA_EGPRS_t.u_PUA_EGPRS_00 : Nat := 1739
/-- Member of `PUA_EGPRS_t` (gsm_rlcmac.h) -/
abbrev PUA_EGPRS_t.UnionType : Nat := 1740
/-- Member of `Packet_Uplink_Assignment_t` (gsm_rlcmac.h) -/
abbrev Packet_Uplink_Assignment_t.MESSAGE_TYPE : Nat := 1741
/-- Member of `Packet_Uplink_Assignment_t` (gsm_rlcmac.h) -/
abbrev Packet_Uplink_Assignment_t.PAGE_MODE : Nat := 1742
/-- Member of `Packet_Uplink_Assignment_t` (gsm_rlcmac.h) -/
abbrev Packet_Uplink_Assignment_t.Exist_PERSISTENCE_LEVEL : Nat := 1743
/-- Member of `Packet_Uplink_Assignment_t` (gsm_rlcmac.h) -/
abbrev Packet_Uplink_Assignment_t.PERSISTENCE_LEVEL : Nat := 1744
/-- Member of `Packet_Uplink_Assignment_t` (gsm_rlcmac.h) -/
abbrev Packet_Uplink_Assignment_t.ID : Nat := 1745
/-- Member of `Packet_Uplink_Assignment_t` (gsm_rlcmac.h) -/
abbrev Packet_Uplink_Assignment_t.u_PUA_GPRS_Struct : Nat := 1746
/-- Member of `Packet_Uplink_Assignment_t` (gsm_rlcmac.h) -/
abbrev Packet_Uplink_Assignment_t.u_PUA_EGPRS_Struct : Nat := 1747
/-- Member of `Packet_Uplink_Assignment_t` (gsm_rlcmac.h) -/
abbrev Packet_Uplink_Assignment_t.UnionType : Nat := 1748
/-- Member of `PacketDownlinkID_t` (gsm_rlcmac.h) -/
abbrev PacketDownlinkID_t.u_Global_TFI : Nat := 1749
/-- Member of `PacketDownlinkID_t` (gsm_rlcmac.h) -/
abbrev PacketDownlinkID_t.u_TLLI : Nat := 1750
/-- Member of `PacketDownlinkID_t` (gsm_rlcmac.h) -/
abbrev PacketDownlinkID_t.UnionType : Nat := 1751
/-- Member of `Power_Control_Parameters_t` (gsm_rlcmac.h) -/
abbrev Power_Control_Parameters_t.ALPHA : Nat := 1752
/-- `Slot[i].Exist` of `Power_Control_Parameters_t` (gsm_rlcmac.h) -/
abbrev Power_Control_Parameters_t.Slot_Exist (i : Nat) : Nat := 1753 + i
/-- `Slot[i].GAMMA_TN` of `Power_Control_Parameters_t` (gsm_rlcmac.h) -/
abbrev Power_Control_Parameters_t.Slot_GAMMA_TN (i : Nat) : Nat := 1761 + i
/-- Member of `Measurement_Mapping_struct_t` (gsm_rlcmac.h) -/
abbrev Measurement_Mapping_struct_t.Measurement_Starting_Time : Nat := 1769
/-- Member of `Measurement_Mapping_struct_t` (gsm_rlcmac.h) -/
abbrev Measurement_Mapping_struct_t.MEASUREMENT_INTERVAL : Nat := 1770
/-- Member of `Measurement_Mapping_struct_t` (gsm_rlcmac.h) -/
abbrev Measurement_Mapping_struct_t.MEASUREMENT_BITMAP : Nat := 1771
/-- Member of `PDA_AdditionsR99_t` (gsm_rlcmac.h) -/
abbrev PDA_AdditionsR99_t.Exist_EGPRS_Params : Nat := 1772
/-- Member of `PDA_AdditionsR99_t` (gsm_rlcmac.h) -/
abbrev PDA_AdditionsR99_t.EGPRS_WindowSize : Nat := 1773
/-- Member of `PDA_AdditionsR99_t` (gsm_rlcmac.h) -/
abbrev PDA_AdditionsR99_t.LINK_QUALITY_MEASUREMENT_MODE : Nat := 1774
/-- Member of `PDA_AdditionsR99_t` (gsm_rlcmac.h) -/
abbrev PDA_AdditionsR99_t.Exist_BEP_PERIOD2 : Nat := 1775
/-- Member of `PDA_AdditionsR99_t` (gsm_rlcmac.h) -/
abbrev PDA_AdditionsR99_t.BEP_PERIOD2 : Nat := 1776
/-- Member of `PDA_AdditionsR99_t` (gsm_rlcmac.h) -/
abbrev PDA_AdditionsR99_t.Exist_Packet_Extended_Timing_Advance : Nat := 1777
/-- Member of `PDA_AdditionsR99_t` (gsm_rlcmac.h) -/
abbrev PDA_AdditionsR99_t.Packet_Extended_Timing_Advance : Nat := 1778
/-- Member of `PDA_AdditionsR99_t` (gsm_rlcmac.h) -/
abbrev PDA_AdditionsR99_t.Exist_COMPACT_ReducedMA : Nat := 1779
/-- Member of `PDA_AdditionsR99_t` (gsm_rlcmac.h) -/
abbrev PDA_AdditionsR99_t.COMPACT_ReducedMA : Nat := 1780
/-- Member of `Packet_Downlink_Assignment_t` (gsm_rlcmac.h) -/
abbrev Packet_Downlink_Assignment_t.MESSAGE_TYPE : Nat := 1781
/-- Member of `Packet_Downlink_Assignment_t` (gsm_rlcmac.h) -/
abbrev Packet_Downlink_Assignment_t.PAGE_MODE : Nat := 1782
/-- Member of `Packet_Downlink_Assignment_t` (gsm_rlcmac.h) -/
abbrev Packet_Downlink_Assignment_t.Exist_PERSISTENCE_LEVEL : Nat := 1783
/-- Member of `Packet_Downlink_Assignment_t` (gsm_rlcmac.h) -/
abbrev Packet_Downlink_Assignment_t.PERSISTENCE_LEVEL : Nat := 1784
/-- Member of `Packet_Downlink_Assignment_t` (gsm_rlcmac.h) -/
abbrev Packet_Downlink_Assignment_t.ID : Nat := 1785
/-- Member of `Packet_Downlink_Assignment_t` (gsm_rlcmac.h) -/
abbrev Packet_Downlink_Assignment_t.MAC_MODE : Nat := 1786
/-- Member of `Packet_Downlink_Assignment_t` (gsm_rlcmac.h) -/
abbrev Packet_Downlink_Assignment_t.RLC_MODE : Nat := 1787
/-- Member of `Packet_Downlink_Assignment_t` (gsm_rlcmac.h) -/
abbrev Packet_Downlink_Assignment_t.CONTROL_ACK : Nat := 1788
/-- Member of `Packet_Downlink_Assignment_t` (gsm_rlcmac.h) -/
abbrev Packet_Downlink_Assignment_t.TIMESLOT_ALLOCATION : Nat := 1789
/-- Member of `Packet_Downlink_Assignment_t` (gsm_rlcmac.h) -/
abbrev Packet_Downlink_Assignment_t.Packet_Timing_Advance : Nat := 1790
/-- Member of `Packet_Downlink_Assignment_t` (gsm_rlcmac.h) -/
abbrev Packet_Downlink_Assignment_t.Exist_P0_and_BTS_PWR_CTRL_MODE : Nat := 1791
/-- Member of `Packet_Downlink_Assignment_t` (gsm_rlcmac.h) -/
abbrev Packet_Downlink_Assignment_t.P0 : Nat := 1792
/-- Member of `Packet_Downlink_Assignment_t` (gsm_rlcmac.h) -/
abbrev Packet_Downlink_Assignment_t.BTS_PWR_CTRL_MODE : Nat := 1793
/-- Member of `Packet_Downlink_Assignment_t` (gsm_rlcmac.h) -/
abbrev Packet_Downlink_Assignment_t.PR_MODE : Nat := 1794
/-- Member of `Packet_Downlink_Assignment_t` (gsm_rlcmac.h) -/
abbrev Packet_Downlink_Assignment_t.Exist_Frequency_Parameters : Nat := 1795
/-- Member of `Packet_Downlink_Assignment_t` (gsm_rlcmac.h) -/
abbrev Packet_Downlink_Assignment_t.Frequency_Parameters : Nat := 1796
/-- Member of `Packet_Downlink_Assignment_t` (gsm_rlcmac.h) -/
abbrev Packet_Downlink_Assignment_t.Exist_DOWNLINK_TFI_ASSIGNMENT : Nat := 1797
/-- Member of `Packet_Downlink_Assignment_t` (gsm_rlcmac.h) -/
abbrev Packet_Downlink_Assignment_t.DOWNLINK_TFI_ASSIGNMENT : Nat := 1798
/-- Member of `Packet_Downlink_Assignment_t` (gsm_rlcmac.h) -/
abbrev Packet_Downlink_Assignment_t.Exist_Power_Control_Parameters : Nat := 1799
/-- Member of `Packet_Downlink_Assignment_t` (gsm_rlcmac.h) -/
abbrev Packet_Downlink_Assignment_t.Power_Control_Parameters : Nat := 1800
/-- Member of `Packet_Downlink_Assignment_t` (gsm_rlcmac.h) -/
abbrev Packet_Downlink_Assignment_t.Exist_TBF_Starting_Time : Nat := 1801
/-- Member of `Packet_Downlink_Assignment_t` (gsm_rlcmac.h) -/
abbrev Packet_Downlink_Assignment_t.TBF_Starting_Time : Nat := 1802
/-- Member of `Packet_Downlink_Assignment_t` (gsm_rlcmac.h) -/
abbrev Packet_Downlink_Assignment_t.Exist_Measurement_Mapping : Nat := 1803
/-- Member of `Packet_Downlink_Assignment_t` (gsm_rlcmac.h) -/
abbrev Packet_Downlink_Assignment_t.Measurement_Mapping : Nat := 1804
/-- Member of `Packet_Downlink_Assignment_t` (gsm_rlcmac.h) -/
abbrev Packet_Downlink_Assignment_t.Exist_AdditionsR99 : Nat := 1805
/-- Member of `Packet_Downlink_Assignment_t` (gsm_rlcmac.h) -/
abbrev Packet_Downlink_Assignment_t.AdditionsR99 : Nat := 1806
/-- Member of `PNCD_Container_Without_ID_t` (gsm_rlcmac.h) -/
abbrev PNCD_Container_Without_ID_t.CONTAINER : Nat := 1807
/-- Member of `PNCD_Container_With_ID_t` (gsm_rlcmac.h) -/
abbrev PNCD_Container_With_ID_t.ARFCN : Nat := 1808
/-- Member of `PNCD_Container_With_ID_t` (gsm_rlcmac.h) -/
abbrev PNCD_Container_With_ID_t.BSIC : Nat := 1809
/-- Member of `PNCD_Container_With_ID_t` (gsm_rlcmac.h) -/
abbrev PNCD_Container_With_ID_t.CONTAINER : Nat := 1810
/-- Member of `PNCDContainer_t` (gsm_rlcmac.h) -/
abbrev PNCDContainer_t.u_PNCD_Container_Without_ID : Nat := 1811
/-- Member of `PNCDContainer_t` (gsm_rlcmac.h) -/
abbrev PNCDContainer_t.u_PNCD_Container_With_ID : Nat := 1812
/-- Member of `PNCDContainer_t` (gsm_rlcmac.h) -/
abbrev PNCDContainer_t.UnionType : Nat := 1813
/-- Member of `Packet_Neighbour_Cell_Data_t` (gsm_rlcmac.h) -/
abbrev Packet_Neighbour_Cell_Data_t.MESSAGE_TYPE : Nat := 1814
/-- Member of `Packet_Neighbour_Cell_Data_t` (gsm_rlcmac.h) -/
abbrev Packet_Neighbour_Cell_Data_t.PAGE_MODE : Nat := 1815
/-- Member of `Packet_Neighbour_Cell_Data_t` (gsm_rlcmac.h) -/
abbrev Packet_Neighbour_Cell_Data_t.Global_TFI : Nat := 1816
/-- Member of `Packet_Neighbour_Cell_Data_t` (gsm_rlcmac.h) -/
abbrev Packet_Neighbour_Cell_Data_t.CONTAINER_ID : Nat := 1817
/-- Member of `Packet_Neighbour_Cell_Data_t` (gsm_rlcmac.h) -/
abbrev Packet_Neighbour_Cell_Data_t.spare : Nat := 1818
/-- Member of `Packet_Neighbour_Cell_Data_t` (gsm_rlcmac.h) -/
abbrev Packet_Neighbour_Cell_Data_t.CONTAINER_INDEX : Nat := 1819
/-- Member of `Packet_Neighbour_Cell_Data_t` (gsm_rlcmac.h) -/
abbrev Packet_Neighbour_Cell_Data_t.Container : Nat := 1820
/-- Member of `Packet_Cell_Change_Continue_t` (gsm_rlcmac.h) -/
abbrev Packet_Cell_Change_Continue_t.MESSAGE_TYPE : Nat := 1821
/-- Member of `Packet_Cell_Change_Continue_t` (gsm_rlcmac.h) -/
abbrev Packet_Cell_Change_Continue_t.PAGE_MODE : Nat := 1822
/-- Member of `Packet_Cell_Change_Continue_t` (gsm_rlcmac.h) -/
abbrev Packet_Cell_Change_Continue_t.Global_TFI : Nat := 1823
/-- Member of `Packet_Cell_Change_Continue_t` (gsm_rlcmac.h) -/
abbrev Packet_Cell_Change_Continue_t.Exist_ID : Nat := 1824
/-- Member of `Packet_Cell_Change_Continue_t` (gsm_rlcmac.h) -/
abbrev Packet_Cell_Change_Continue_t.ARFCN : Nat := 1825
/-- Member of `Packet_Cell_Change_Continue_t` (gsm_rlcmac.h) -/
abbrev Packet_Cell_Change_Continue_t.BSIC : Nat := 1826
/-- Member of `Packet_Cell_Change_Continue_t` (gsm_rlcmac.h) -/
abbrev Packet_Cell_Change_Continue_t.CONTAINER_ID : Nat := 1827

/-- Packet_Request_Reference_t, gsm_rlcmac.c:1825-1828 -/
def Packet_Request_Reference_t : Items :=
  .cons (.uint 11 Packet_Request_Reference_t.RANDOM_ACCESS_INFORMATION false) <|
  .cons (.uintArray 8 Packet_Request_Reference_t.FRAME_NUMBER 2 2) <|
  .nil

/-- PacketUplinkID, gsm_rlcmac.c:2007-2013 -/
def PacketUplinkID : Alts :=
  .cons 1 0 (.type Global_TFI_t PacketUplinkID_t.u_Global_TFI false) <|
  .cons 2 2 (.uint 32 PacketUplinkID_t.u_TLLI false) <|
  .cons 3 6 (.uint 16 PacketUplinkID_t.u_TQI false) <|
  .cons 3 7 (.type Packet_Request_Reference_t PacketUplinkID_t.u_Packet_Request_Reference false) <|
  .nil

/-- PacketUplinkID_t, gsm_rlcmac.c:2016-2018 -/
def PacketUplinkID_t : Items :=
  .cons (.choice PacketUplinkID_t.UnionType PacketUplinkID) <|
  .nil

/-- Packet_Timing_Advance_t, gsm_rlcmac.c:90-97 -/
def Packet_Timing_Advance_t : Items :=
  .opt Packet_Timing_Advance_t.Exist_TIMING_ADVANCE_VALUE false false 1 <|
  .cons (.uint 6 Packet_Timing_Advance_t.TIMING_ADVANCE_VALUE false) <|
  .opt Packet_Timing_Advance_t.Exist_IndexAndtimeSlot false false 2 <|
  .cons (.uint 4 Packet_Timing_Advance_t.TIMING_ADVANCE_INDEX false) <|
  .cons (.uint 3 Packet_Timing_Advance_t.TIMING_ADVANCE_TIMESLOT_NUMBER false) <|
  .nil

/-- CHANGE_MARK_t, gsm_rlcmac.c:1783-1788 -/
def CHANGE_MARK_t : Items :=
  .cons (.uint 2 CHANGE_MARK_t.CHANGE_MARK_1 false) <|
  .opt CHANGE_MARK_t.Exist_CHANGE_MARK_2 false false 1 <|
  .cons (.uint 2 CHANGE_MARK_t.CHANGE_MARK_2 false) <|
  .nil

/-- Indirect_encoding_t, gsm_rlcmac.c:1791-1797 -/
def Indirect_encoding_t : Items :=
  .cons (.uint 6 Indirect_encoding_t.MAIO false) <|
  .cons (.uint 4 Indirect_encoding_t.MA_NUMBER false) <|
  .opt Indirect_encoding_t.Exist_CHANGE_MARK false false 1 <|
  .cons (.type CHANGE_MARK_t Indirect_encoding_t.CHANGE_MARK false) <|
  .nil

/-- MobileAllocation_t, gsm_rlcmac.c:597-600 -/
def MobileAllocation_t : Items :=
  .cons (.uintOffset 6 MobileAllocation_t.MA_BitLength 1) <|
  .cons (.varBitmap MobileAllocation_t.MA_BITMAP MobileAllocation_t.MA_BitLength 8) <|
  .nil

/-- ARFCN_index_list_t, gsm_rlcmac.c:603-605 -/
def ARFCN_index_list_t : Items :=
  .cons (.recArray 6 ARFCN_index_list_t.ARFCN_INDEX ARFCN_index_list_t.ElementsOf_ARFCN_INDEX 16) <|
  .nil

/-- GPRS_Mobile_Allocation_t, gsm_rlcmac.c:608-614 -/
def GPRS_Mobile_Allocation_t : Items :=
  .cons (.uint 6 GPRS_Mobile_Allocation_t.HSN false) <|
  .cons (.recArray 4 GPRS_Mobile_Allocation_t.RFL_NUMBER GPRS_Mobile_Allocation_t.ElementsOf_RFL_NUMBER 4) <|
  .cons (.union 1 GPRS_Mobile_Allocation_t.UnionType (.cons (.type MobileAllocation_t GPRS_Mobile_Allocation_t.u_MA false) (.cons (.type ARFCN_index_list_t GPRS_Mobile_Allocation_t.u_ARFCN_index_list false) .nil))) <|
  .nil

/-- Direct_encoding_1_t, gsm_rlcmac.c:1800-1803 -/
def Direct_encoding_1_t : Items :=
  .cons (.uint 6 Direct_encoding_1_t.MAIO false) <|
  .cons (.type GPRS_Mobile_Allocation_t Direct_encoding_1_t.GPRS_Mobile_Allocation false) <|
  .nil

/-- Direct_encoding_2_t, gsm_rlcmac.c:1806-1811 -/
def Direct_encoding_2_t : Items :=
  .cons (.uint 6 Direct_encoding_2_t.MAIO false) <|
  .cons (.uint 6 Direct_encoding_2_t.HSN false) <|
  .cons (.uintOffset 4 Direct_encoding_2_t.Length_of_MA_Frequency_List 3) <|
  .cons (.varArray Direct_encoding_2_t.MA_Frequency_List Direct_encoding_2_t.Length_of_MA_Frequency_List 18) <|
  .nil

/-- Frequency_Parameters_t, gsm_rlcmac.c:1814-1822 -/
def Frequency_Parameters_t : Items :=
  .cons (.uint 3 Frequency_Parameters_t.TSC false) <|
  .cons (.union 2 Frequency_Parameters_t.UnionType (.cons (.uint 10 Frequency_Parameters_t.u_ARFCN false) (.cons (.type Indirect_encoding_t Frequency_Parameters_t.u_Indirect_encoding false) (.cons (.type Direct_encoding_1_t Frequency_Parameters_t.u_Direct_encoding_1 false) (.cons (.type Direct_encoding_2_t Frequency_Parameters_t.u_Direct_encoding_2 false) .nil))))) <|
  .nil

/-- StartingTime_t, gsm_rlcmac.c:58-62 -/
def StartingTime_t : Items :=
  .cons (.uint 5 StartingTime_t.N32 false) <|
  .cons (.uint 6 StartingTime_t.N51 false) <|
  .cons (.uint 5 StartingTime_t.N26 false) <|
  .nil

/-- Starting_Frame_Number_t, gsm_rlcmac.c:74-78 -/
def Starting_Frame_Number_t : Items :=
  .cons (.union 1 Starting_Frame_Number_t.UnionType (.cons (.type StartingTime_t Starting_Frame_Number_t.u_StartingTime false) (.cons (.uint 13 Starting_Frame_Number_t.u_k false) .nil))) <|
  .nil

/-- Timeslot_Allocation_t, gsm_rlcmac.c:1831-1834 -/
def Timeslot_Allocation_t : Items :=
  .opt Timeslot_Allocation_t.Exist false false 1 <|
  .cons (.uint 3 Timeslot_Allocation_t.USF_TN false) <|
  .nil

/-- Timeslot_Allocation_Power_Ctrl_Param_t, gsm_rlcmac.c:1837-1871 -/
def Timeslot_Allocation_Power_Ctrl_Param_t : Items :=
  .cons (.uint 4 Timeslot_Allocation_Power_Ctrl_Param_t.ALPHA false) <|
  .opt (Timeslot_Allocation_Power_Ctrl_Param_t.Slot_Exist 0) false false 2 <|
  .cons (.uint 3 (Timeslot_Allocation_Power_Ctrl_Param_t.Slot_USF_TN 0) false) <|
  .cons (.uint 5 (Timeslot_Allocation_Power_Ctrl_Param_t.Slot_GAMMA_TN 0) false) <|
  .opt (Timeslot_Allocation_Power_Ctrl_Param_t.Slot_Exist 1) false false 2 <|
  .cons (.uint 3 (Timeslot_Allocation_Power_Ctrl_Param_t.Slot_USF_TN 1) false) <|
  .cons (.uint 5 (Timeslot_Allocation_Power_Ctrl_Param_t.Slot_GAMMA_TN 1) false) <|
  .opt (Timeslot_Allocation_Power_Ctrl_Param_t.Slot_Exist 2) false false 2 <|
  .cons (.uint 3 (Timeslot_Allocation_Power_Ctrl_Param_t.Slot_USF_TN 2) false) <|
  .cons (.uint 5 (Timeslot_Allocation_Power_Ctrl_Param_t.Slot_GAMMA_TN 2) false) <|
  .opt (Timeslot_Allocation_Power_Ctrl_Param_t.Slot_Exist 3) false false 2 <|
  .cons (.uint 3 (Timeslot_Allocation_Power_Ctrl_Param_t.Slot_USF_TN 3) false) <|
  .cons (.uint 5 (Timeslot_Allocation_Power_Ctrl_Param_t.Slot_GAMMA_TN 3) false) <|
  .opt (Timeslot_Allocation_Power_Ctrl_Param_t.Slot_Exist 4) false false 2 <|
  .cons (.uint 3 (Timeslot_Allocation_Power_Ctrl_Param_t.Slot_USF_TN 4) false) <|
  .cons (.uint 5 (Timeslot_Allocation_Power_Ctrl_Param_t.Slot_GAMMA_TN 4) false) <|
  .opt (Timeslot_Allocation_Power_Ctrl_Param_t.Slot_Exist 5) false false 2 <|
  .cons (.uint 3 (Timeslot_Allocation_Power_Ctrl_Param_t.Slot_USF_TN 5) false) <|
  .cons (.uint 5 (Timeslot_Allocation_Power_Ctrl_Param_t.Slot_GAMMA_TN 5) false) <|
  .opt (Timeslot_Allocation_Power_Ctrl_Param_t.Slot_Exist 6) false false 2 <|
  .cons (.uint 3 (Timeslot_Allocation_Power_Ctrl_Param_t.Slot_USF_TN 6) false) <|
  .cons (.uint 5 (Timeslot_Allocation_Power_Ctrl_Param_t.Slot_GAMMA_TN 6) false) <|
  .opt (Timeslot_Allocation_Power_Ctrl_Param_t.Slot_Exist 7) false false 2 <|
  .cons (.uint 3 (Timeslot_Allocation_Power_Ctrl_Param_t.Slot_USF_TN 7) false) <|
  .cons (.uint 5 (Timeslot_Allocation_Power_Ctrl_Param_t.Slot_GAMMA_TN 7) false) <|
  .nil

/-- Dynamic_Allocation_t, gsm_rlcmac.c:1875-1896 -/
def Dynamic_Allocation_t : Items :=
  .cons (.uint 1 Dynamic_Allocation_t.Extended_Dynamic_Allocation false) <|
  .opt Dynamic_Allocation_t.Exist_P0 false false 2 <|
  .cons (.uint 4 Dynamic_Allocation_t.P0 false) <|
  .cons (.uint 1 Dynamic_Allocation_t.PR_MODE false) <|
  .cons (.uint 1 Dynamic_Allocation_t.USF_GRANULARITY false) <|
  .opt Dynamic_Allocation_t.Exist_UPLINK_TFI_ASSIGNMENT false false 1 <|
  .cons (.uint 5 Dynamic_Allocation_t.UPLINK_TFI_ASSIGNMENT false) <|
  .opt Dynamic_Allocation_t.Exist_RLC_DATA_BLOCKS_GRANTED false false 1 <|
  .cons (.uint 8 Dynamic_Allocation_t.RLC_DATA_BLOCKS_GRANTED false) <|
  .opt Dynamic_Allocation_t.Exist_TBF_Starting_Time false false 1 <|
  .cons (.type Starting_Frame_Number_t Dynamic_Allocation_t.TBF_Starting_Time false) <|
  .cons (.union 1 Dynamic_Allocation_t.UnionType (.cons (.typeArray Timeslot_Allocation_t Dynamic_Allocation_t.u_Timeslot_Allocation 8 8) (.cons (.type Timeslot_Allocation_Power_Ctrl_Param_t Dynamic_Allocation_t.u_Timeslot_Allocation_Power_Ctrl_Param false) .nil))) <|
  .nil

/-- Single_Block_Allocation_t, gsm_rlcmac.c:1899-1912 -/
def Single_Block_Allocation_t : Items :=
  .cons (.uint 3 Single_Block_Allocation_t.TIMESLOT_NUMBER false) <|
  .opt Single_Block_Allocation_t.Exist_ALPHA_and_GAMMA_TN false false 2 <|
  .cons (.uint 4 Single_Block_Allocation_t.ALPHA false) <|
  .cons (.uint 5 Single_Block_Allocation_t.GAMMA_TN false) <|
  .opt Single_Block_Allocation_t.Exist_P0 false false 3 <|
  .cons (.uint 4 Single_Block_Allocation_t.P0 false) <|
  .cons (.uint 1 Single_Block_Allocation_t.BTS_PWR_CTRL_MODE false) <|
  .cons (.uint 1 Single_Block_Allocation_t.PR_MODE false) <|
  .cons (.type Starting_Frame_Number_t Single_Block_Allocation_t.TBF_Starting_Time false) <|
  .nil

/-- PUA_GPRS_AdditionsR99_t, gsm_rlcmac.c:2021-2024 -/
def PUA_GPRS_AdditionsR99_t : Items :=
  .opt PUA_GPRS_AdditionsR99_t.Exist_Packet_Extended_Timing_Advance false false 1 <|
  .cons (.uint 2 PUA_GPRS_AdditionsR99_t.Packet_Extended_Timing_Advance false) <|
  .nil

/-- PUA_GPRS_t, gsm_rlcmac.c:2027-2043 -/
def PUA_GPRS_t : Items :=
  .cons (.uint 2 PUA_GPRS_t.CHANNEL_CODING_COMMAND false) <|
  .cons (.uint 1 PUA_GPRS_t.TLLI_BLOCK_CHANNEL_CODING false) <|
  .cons (.type Packet_Timing_Advance_t PUA_GPRS_t.Packet_Timing_Advance false) <|
  .opt PUA_GPRS_t.Exist_Frequency_Parameters false false 1 <|
  .cons (.type Frequency_Parameters_t PUA_GPRS_t.Frequency_Parameters false) <|
  .cons (.union 2 PUA_GPRS_t.UnionType (.cons (.trap) (.cons (.type Dynamic_Allocation_t PUA_GPRS_t.u_Dynamic_Allocation false) (.cons (.type Single_Block_Allocation_t PUA_GPRS_t.u_Single_Block_Allocation false) (.cons (.trap) .nil))))) <|
  .opt PUA_GPRS_t.Exist_AdditionsR99 true false 1 <|
  .cons (.type PUA_GPRS_AdditionsR99_t PUA_GPRS_t.AdditionsR99 false) <|
  .nil

/-- COMPACT_ReducedMA_t, gsm_rlcmac.c:2046-2052 -/
def COMPACT_ReducedMA_t : Items :=
  .cons (.uint 7 COMPACT_ReducedMA_t.BitmapLength false) <|
  .cons (.varBitmap COMPACT_ReducedMA_t.ReducedMA_Bitmap COMPACT_ReducedMA_t.BitmapLength 16) <|
  .opt COMPACT_ReducedMA_t.Exist_MAIO_2 false false 1 <|
  .cons (.uint 6 COMPACT_ReducedMA_t.MAIO_2 false) <|
  .nil

/-- MultiBlock_Allocation_t, gsm_rlcmac.c:2055-2069 -/
def MultiBlock_Allocation_t : Items :=
  .cons (.uint 3 MultiBlock_Allocation_t.TIMESLOT_NUMBER false) <|
  .opt MultiBlock_Allocation_t.Exist_ALPHA_GAMMA_TN false false 2 <|
  .cons (.uint 4 MultiBlock_Allocation_t.ALPHA false) <|
  .cons (.uint 5 MultiBlock_Allocation_t.GAMMA_TN false) <|
  .opt MultiBlock_Allocation_t.Exist_P0_BTS_PWR_CTRL_PR_MODE false false 3 <|
  .cons (.uint 4 MultiBlock_Allocation_t.P0 false) <|
  .cons (.uint 1 MultiBlock_Allocation_t.BTS_PWR_CTRL_MODE false) <|
  .cons (.uint 1 MultiBlock_Allocation_t.PR_MODE false) <|
  .cons (.type Starting_Frame_Number_t MultiBlock_Allocation_t.TBF_Starting_Time false) <|
  .cons (.uint 2 MultiBlock_Allocation_t.NUMBER_OF_RADIO_BLOCKS_ALLOCATED false) <|
  .nil

/-- PUA_EGPRS_00_t, gsm_rlcmac.c:2072-2104 -/
def PUA_EGPRS_00_t : Items :=
  .opt PUA_EGPRS_00_t.Exist_CONTENTION_RESOLUTION_TLLI false false 1 <|
  .cons (.uint 32 PUA_EGPRS_00_t.CONTENTION_RESOLUTION_TLLI false) <|
  .opt PUA_EGPRS_00_t.Exist_COMPACT_ReducedMA false false 1 <|
  .cons (.type COMPACT_ReducedMA_t PUA_EGPRS_00_t.COMPACT_ReducedMA false) <|
  .cons (.uint 4 PUA_EGPRS_00_t.EGPRS_CHANNEL_CODING_COMMAND false) <|
  .cons (.uint 1 PUA_EGPRS_00_t.RESEGMENT false) <|
  .cons (.uint 5 PUA_EGPRS_00_t.EGPRS_WindowSize false) <|
  .cons (.recArray 4 PUA_EGPRS_00_t.AccessTechnologyType PUA_EGPRS_00_t.NrOfAccessTechnologies 12) <|
  .cons (.uint 1 PUA_EGPRS_00_t.ARAC_RETRANSMISSION_REQUEST false) <|
  .cons (.uint 1 PUA_EGPRS_00_t.TLLI_BLOCK_CHANNEL_CODING false) <|
  .opt PUA_EGPRS_00_t.Exist_BEP_PERIOD2 false false 1 <|
  .cons (.uint 4 PUA_EGPRS_00_t.BEP_PERIOD2 false) <|
  .cons (.type Packet_Timing_Advance_t PUA_EGPRS_00_t.Packet_Timing_Advance false) <|
  .opt PUA_EGPRS_00_t.Exist_Packet_Extended_Timing_Advance false false 1 <|
  .cons (.uint 2 PUA_EGPRS_00_t.Packet_Extended_Timing_Advance false) <|
  .opt PUA_EGPRS_00_t.Exist_Frequency_Parameters false false 1 <|
  .cons (.type Frequency_Parameters_t PUA_EGPRS_00_t.Frequency_Parameters false) <|
  .cons (.union 2 PUA_EGPRS_00_t.UnionType (.cons (.trap) (.cons (.type Dynamic_Allocation_t PUA_EGPRS_00_t.u_Dynamic_Allocation false) (.cons (.type MultiBlock_Allocation_t PUA_EGPRS_00_t.u_MultiBlock_Allocation false) (.cons (.trap) .nil))))) <|
  .nil

/-- PUA_EGPRS_t, gsm_rlcmac.c:2107-2113 -/
def PUA_EGPRS_t : Items :=
  .cons (.union 2 PUA_EGPRS_t.UnionType (.cons (.type PUA_EGPRS_00_t PUA_EGPRS_t.u_PUA_EGPRS_00 false) (.cons (.trap) (.cons (.trap) (.cons (.trap) .nil))))) <|
  .nil

/-- Packet_Uplink_Assignment_t, gsm_rlcmac.c:2116-2130 -/
def Packet_Uplink_Assignment_t : Items :=
  .cons (.uint 6 Packet_Uplink_Assignment_t.MESSAGE_TYPE false) <|
  .cons (.uint 2 Packet_Uplink_Assignment_t.PAGE_MODE false) <|
  .opt Packet_Uplink_Assignment_t.Exist_PERSISTENCE_LEVEL false false 1 <|
  .cons (.uintArray 4 Packet_Uplink_Assignment_t.PERSISTENCE_LEVEL 4 4) <|
  .cons (.type PacketUplinkID_t Packet_Uplink_Assignment_t.ID false) <|
  .cons (.union 1 Packet_Uplink_Assignment_t.UnionType (.cons (.type PUA_GPRS_t Packet_Uplink_Assignment_t.u_PUA_GPRS_Struct false) (.cons (.type PUA_EGPRS_t Packet_Uplink_Assignment_t.u_PUA_EGPRS_Struct false) .nil))) <|
  .cons (.padding) <|
  .nil

/-- PacketDownlinkID, gsm_rlcmac.c:2141-2145 -/
def PacketDownlinkID : Alts :=
  .cons 1 0 (.type Global_TFI_t PacketDownlinkID_t.u_Global_TFI false) <|
  .cons 2 2 (.uint 32 PacketDownlinkID_t.u_TLLI false) <|
  .nil

/-- PacketDownlinkID_t, gsm_rlcmac.c:2148-2150 -/
def PacketDownlinkID_t : Items :=
  .cons (.choice PacketDownlinkID_t.UnionType PacketDownlinkID) <|
  .nil

/-- Power_Control_Parameters_t, gsm_rlcmac.c:1668-1694 -/
def Power_Control_Parameters_t : Items :=
  .cons (.uint 4 Power_Control_Parameters_t.ALPHA false) <|
  .opt (Power_Control_Parameters_t.Slot_Exist 0) false false 1 <|
  .cons (.uint 5 (Power_Control_Parameters_t.Slot_GAMMA_TN 0) false) <|
  .opt (Power_Control_Parameters_t.Slot_Exist 1) false false 1 <|
  .cons (.uint 5 (Power_Control_Parameters_t.Slot_GAMMA_TN 1) false) <|
  .opt (Power_Control_Parameters_t.Slot_Exist 2) false false 1 <|
  .cons (.uint 5 (Power_Control_Parameters_t.Slot_GAMMA_TN 2) false) <|
  .opt (Power_Control_Parameters_t.Slot_Exist 3) false false 1 <|
  .cons (.uint 5 (Power_Control_Parameters_t.Slot_GAMMA_TN 3) false) <|
  .opt (Power_Control_Parameters_t.Slot_Exist 4) false false 1 <|
  .cons (.uint 5 (Power_Control_Parameters_t.Slot_GAMMA_TN 4) false) <|
  .opt (Power_Control_Parameters_t.Slot_Exist 5) false false 1 <|
  .cons (.uint 5 (Power_Control_Parameters_t.Slot_GAMMA_TN 5) false) <|
  .opt (Power_Control_Parameters_t.Slot_Exist 6) false false 1 <|
  .cons (.uint 5 (Power_Control_Parameters_t.Slot_GAMMA_TN 6) false) <|
  .opt (Power_Control_Parameters_t.Slot_Exist 7) false false 1 <|
  .cons (.uint 5 (Power_Control_Parameters_t.Slot_GAMMA_TN 7) false) <|
  .nil

/-- Measurement_Mapping_struct_t, gsm_rlcmac.c:2134-2138 -/
def Measurement_Mapping_struct_t : Items :=
  .cons (.type Starting_Frame_Number_t Measurement_Mapping_struct_t.Measurement_Starting_Time false) <|
  .cons (.uint 5 Measurement_Mapping_struct_t.MEASUREMENT_INTERVAL false) <|
  .cons (.uint 8 Measurement_Mapping_struct_t.MEASUREMENT_BITMAP false) <|
  .nil

/-- PDA_AdditionsR99_t, gsm_rlcmac.c:2153-2165 -/
def PDA_AdditionsR99_t : Items :=
  .opt PDA_AdditionsR99_t.Exist_EGPRS_Params false false 4 <|
  .cons (.uint 5 PDA_AdditionsR99_t.EGPRS_WindowSize false) <|
  .cons (.uint 2 PDA_AdditionsR99_t.LINK_QUALITY_MEASUREMENT_MODE false) <|
  .opt PDA_AdditionsR99_t.Exist_BEP_PERIOD2 false false 1 <|
  .cons (.uint 4 PDA_AdditionsR99_t.BEP_PERIOD2 false) <|
  .opt PDA_AdditionsR99_t.Exist_Packet_Extended_Timing_Advance false false 1 <|
  .cons (.uint 2 PDA_AdditionsR99_t.Packet_Extended_Timing_Advance false) <|
  .opt PDA_AdditionsR99_t.Exist_COMPACT_ReducedMA false false 1 <|
  .cons (.type COMPACT_ReducedMA_t PDA_AdditionsR99_t.COMPACT_ReducedMA false) <|
  .nil

/-- Packet_Downlink_Assignment_t, gsm_rlcmac.c:2168-2209 -/
def Packet_Downlink_Assignment_t : Items :=
  .cons (.uint 6 Packet_Downlink_Assignment_t.MESSAGE_TYPE false) <|
  .cons (.uint 2 Packet_Downlink_Assignment_t.PAGE_MODE false) <|
  .opt Packet_Downlink_Assignment_t.Exist_PERSISTENCE_LEVEL false false 1 <|
  .cons (.uintArray 4 Packet_Downlink_Assignment_t.PERSISTENCE_LEVEL 4 4) <|
  .cons (.type PacketDownlinkID_t Packet_Downlink_Assignment_t.ID false) <|
  .cons (.fixed 1 0) <|
  .cons (.uint 2 Packet_Downlink_Assignment_t.MAC_MODE false) <|
  .cons (.uint 1 Packet_Downlink_Assignment_t.RLC_MODE false) <|
  .cons (.uint 1 Packet_Downlink_Assignment_t.CONTROL_ACK false) <|
  .cons (.uint 8 Packet_Downlink_Assignment_t.TIMESLOT_ALLOCATION false) <|
  .cons (.type Packet_Timing_Advance_t Packet_Downlink_Assignment_t.Packet_Timing_Advance false) <|
  .opt Packet_Downlink_Assignment_t.Exist_P0_and_BTS_PWR_CTRL_MODE false false 3 <|
  .cons (.uint 4 Packet_Downlink_Assignment_t.P0 false) <|
  .cons (.uint 1 Packet_Downlink_Assignment_t.BTS_PWR_CTRL_MODE false) <|
  .cons (.uint 1 Packet_Downlink_Assignment_t.PR_MODE false) <|
  .opt Packet_Downlink_Assignment_t.Exist_Frequency_Parameters false false 1 <|
  .cons (.type Frequency_Parameters_t Packet_Downlink_Assignment_t.Frequency_Parameters false) <|
  .opt Packet_Downlink_Assignment_t.Exist_DOWNLINK_TFI_ASSIGNMENT false false 1 <|
  .cons (.uint 5 Packet_Downlink_Assignment_t.DOWNLINK_TFI_ASSIGNMENT false) <|
  .opt Packet_Downlink_Assignment_t.Exist_Power_Control_Parameters false false 1 <|
  .cons (.type Power_Control_Parameters_t Packet_Downlink_Assignment_t.Power_Control_Parameters false) <|
  .opt Packet_Downlink_Assignment_t.Exist_TBF_Starting_Time false false 1 <|
  .cons (.type Starting_Frame_Number_t Packet_Downlink_Assignment_t.TBF_Starting_Time false) <|
  .opt Packet_Downlink_Assignment_t.Exist_Measurement_Mapping false false 1 <|
  .cons (.type Measurement_Mapping_struct_t Packet_Downlink_Assignment_t.Measurement_Mapping false) <|
  .opt Packet_Downlink_Assignment_t.Exist_AdditionsR99 true false 1 <|
  .cons (.type PDA_AdditionsR99_t Packet_Downlink_Assignment_t.AdditionsR99 false) <|
  .cons (.padding) <|
  .nil

/-- PNCD_Container_Without_ID_t, gsm_rlcmac.c:4336-4338 -/
def PNCD_Container_Without_ID_t : Items :=
  .cons (.uintArray 8 PNCD_Container_Without_ID_t.CONTAINER 19 19) <|
  .nil

/-- PNCD_Container_With_ID_t, gsm_rlcmac.c:4329-4333 -/
def PNCD_Container_With_ID_t : Items :=
  .cons (.uint 10 PNCD_Container_With_ID_t.ARFCN false) <|
  .cons (.uint 6 PNCD_Container_With_ID_t.BSIC false) <|
  .cons (.uintArray 8 PNCD_Container_With_ID_t.CONTAINER 17 17) <|
  .nil

/-- PNCDContainer, gsm_rlcmac.c:4341-4345 -/
def PNCDContainer : Alts :=
  .cons 1 0 (.type PNCD_Container_Without_ID_t PNCDContainer_t.u_PNCD_Container_Without_ID false) <|
  .cons 1 1 (.type PNCD_Container_With_ID_t PNCDContainer_t.u_PNCD_Container_With_ID false) <|
  .nil

/-- PNCDContainer_t, gsm_rlcmac.c:4348-4350 -/
def PNCDContainer_t : Items :=
  .cons (.choice PNCDContainer_t.UnionType PNCDContainer) <|
  .nil

/-- Packet_Neighbour_Cell_Data_t, gsm_rlcmac.c:4353-4365 -/
def Packet_Neighbour_Cell_Data_t : Items :=
  .cons (.uint 6 Packet_Neighbour_Cell_Data_t.MESSAGE_TYPE false) <|
  .cons (.uint 2 Packet_Neighbour_Cell_Data_t.PAGE_MODE false) <|
  .cons (.fixed 1 0) <|
  .cons (.type Global_TFI_t Packet_Neighbour_Cell_Data_t.Global_TFI false) <|
  .cons (.uint 2 Packet_Neighbour_Cell_Data_t.CONTAINER_ID false) <|
  .cons (.uint 1 Packet_Neighbour_Cell_Data_t.spare false) <|
  .cons (.uint 5 Packet_Neighbour_Cell_Data_t.CONTAINER_INDEX false) <|
  .cons (.type PNCDContainer_t Packet_Neighbour_Cell_Data_t.Container false) <|
  .cons (.padding) <|
  .nil

/-- Packet_Cell_Change_Continue_t, gsm_rlcmac.c:4313-4325 -/
def Packet_Cell_Change_Continue_t : Items :=
  .cons (.uint 6 Packet_Cell_Change_Continue_t.MESSAGE_TYPE false) <|
  .cons (.uint 2 Packet_Cell_Change_Continue_t.PAGE_MODE false) <|
  .cons (.fixed 1 0) <|
  .cons (.type Global_TFI_t Packet_Cell_Change_Continue_t.Global_TFI false) <|
  .opt Packet_Cell_Change_Continue_t.Exist_ID false false 3 <|
  .cons (.uint 10 Packet_Cell_Change_Continue_t.ARFCN false) <|
  .cons (.uint 6 Packet_Cell_Change_Continue_t.BSIC false) <|
  .cons (.uint 2 Packet_Cell_Change_Continue_t.CONTAINER_ID false) <|
  .cons (.padding) <|
  .nil

end Verif.Csn1.T
